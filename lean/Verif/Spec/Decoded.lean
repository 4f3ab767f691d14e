import Verif.Spec.Api
/-
What can be said of every decoded packet.
-/
namespace Spec

open Mqtt (Bytes StrMode Packet QoS)

/-- A present property record holds at least one property. -/
def NonEmptyRecord {α : Type} (toList : α → List Property) (o : Option α) : Prop :=
  ∀ q, o = some q → toList q ≠ []

/-- A packet that satisfies the invariants of decoded packets: lengths and numbers within the
limits of the protocol, present property records and logins not empty, packet identifier 0
exactly in PUBLISH with QoS 0, lists not empty, an MQTT 5 return code. -/
def WellFormed (p : Packet) : Prop :=
  (∀ s ∈ fields p, s.length ≤ 65535) ∧
  (∀ q ∈ props p, ∀ s ∈ q.strings, s.length ≤ 65535) ∧
  (∀ n, .subscriptionIdentifier n ∈ props p → n ≤ 268435455) ∧
  (match p with
    | .Connect c will login =>
      NonEmptyRecord ConnectProperties.toList c.properties ∧
      (∀ w, will = some w → NonEmptyRecord LastWillProperties.toList w.properties) ∧
      (∀ l, login = some l → l.username ≠ [] ∨ l.password ≠ [])
    | .ConnAck p => NonEmptyRecord ConnAckProperties.toList p.properties ∧
      ∃ x, connAckCode p.code = some x
    | .Publish p => NonEmptyRecord PublishProperties.toList p.properties ∧
      (p.pkid = 0 ↔ p.qos = .AtMostOnce)
    | .PubAck p => NonEmptyRecord PubAckProperties.toList p.properties
    | .PubRec p => NonEmptyRecord PubRecProperties.toList p.properties
    | .PubRel p => NonEmptyRecord PubRelProperties.toList p.properties
    | .PubComp p => NonEmptyRecord PubCompProperties.toList p.properties
    | .Subscribe p => NonEmptyRecord SubscribeProperties.toList p.properties ∧ p.filters ≠ []
    | .SubAck p => NonEmptyRecord SubAckProperties.toList p.properties ∧ p.return_codes ≠ []
    | .Unsubscribe p => NonEmptyRecord UnsubscribeProperties.toList p.properties
    | .UnsubAck p => NonEmptyRecord UnsubAckProperties.toList p.properties ∧ p.reasons ≠ []
    | .PingReq => True
    | .PingResp => True
    | .Disconnect p => NonEmptyRecord DisconnectProperties.toList p.properties)

/-- Total length of some byte strings. -/
def total (l : List Bytes) : Nat := (l.map List.length).sum

/-- Bytes of payload, or number of list entries. -/
def entries : Packet → Nat
  | .Publish p => p.payload.length
  | .Subscribe p => p.filters.length
  | .SubAck p => p.return_codes.length
  | .Unsubscribe p => p.filters.length
  | .UnsubAck p => p.reasons.length
  | _ => 0

/-- Size of the variable-length data of a packet: all its strings and binary fields (those in
properties included), one for each property, its payload, one for each list entry. -/
def dataSize (p : Packet) : Nat :=
  total (fields p) + ((props p).map fun q => total q.strings + 1).sum + entries p

end Spec
