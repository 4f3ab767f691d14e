import Verif.Model.Cost
/-
What C55 is about: the number of loop iterations a call of `Packet::read` executes, and sessions.
-/
namespace Spec

open Mqtt

/-- The number of loop iterations executed by `Packet::read` on the stream `b`. -/
def work (mode : StrMode) (max : Option Nat) (b : Bytes) : Nat := (Packet.readC mode max b).2

/-- Whether a call returned a packet. -/
def returned {α : Type} : Out α → Bool
  | .ok _ => true
  | _ => false

/-- A session of a receiver: bytes are appended to the buffer and `Packet::read` is called on it, in
any order and any number of times. `Session mode max b fed failed total`: after a session with
`fed` bytes appended and `failed` calls that returned no packet, the buffer holds `b` and `total`
loop iterations have been executed. -/
inductive Session (mode : StrMode) (max : Option Nat) : Bytes → (fed failed total : Nat) → Prop
  | start : Session mode max [] 0 0 0
  | feed {b fed failed total} (c : Bytes) : Session mode max b fed failed total →
      Session mode max (b ++ c) (fed + c.length) failed total
  | read {b fed failed total} : Session mode max b fed failed total →
      Session mode max (Packet.read mode max b).2 fed
        (failed + if returned (Packet.read mode max b).1 then 0 else 1) (total + work mode max b)

/-- The number of entries of the lists of a packet: user properties, subscription identifiers,
filters and reason codes. -/
def listEntries : Packet → Nat
  | .Connect c w _ =>
    (c.properties.elim 0 (·.user_properties.length)) +
      (w.elim 0 fun w => w.properties.elim 0 (·.user_properties.length))
  | .ConnAck p => p.properties.elim 0 (·.user_properties.length)
  | .Publish p => p.properties.elim 0 fun q =>
      q.user_properties.length + q.subscription_identifiers.length
  | .PubAck p => p.properties.elim 0 (·.user_properties.length)
  | .PubRec p => p.properties.elim 0 (·.user_properties.length)
  | .PubRel p => p.properties.elim 0 (·.user_properties.length)
  | .PubComp p => p.properties.elim 0 (·.user_properties.length)
  | .Subscribe p => p.filters.length + p.properties.elim 0 (·.user_properties.length)
  | .SubAck p => p.return_codes.length + p.properties.elim 0 (·.user_properties.length)
  | .Unsubscribe p => p.filters.length + p.properties.elim 0 (·.user_properties.length)
  | .UnsubAck p => p.reasons.length + p.properties.elim 0 (·.user_properties.length)
  | .Disconnect p => p.properties.elim 0 (·.user_properties.length)
  | .PingReq => 0
  | .PingResp => 0

end Spec
