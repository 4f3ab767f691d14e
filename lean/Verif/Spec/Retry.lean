import Verif.Spec.Api
/-
Vocabulary for C84: QoS 1 messages and connections that break (MQTT 5, 4.3.2 and 4.4).
-/
namespace Spec

open Mqtt

/-- What the sender has to send again on the next connection, and the PUBLISHes that the receiver has
read. -/
structure Retry where
  pending : List Publish
  received : List Publish

/-- The acknowledgement of a message. -/
def ackOf (p : Publish) : Packet := .PubAck { pkid := p.pkid, reason := .Success, properties := none }

/-- The message in a result of `read`. -/
def messageIn : Out Packet → Option Publish
  | .ok (.Publish p) => some p
  | _ => none

/-- The packet identifier acknowledged by a result of `read`. -/
def ackedIn : Out Packet → Option UInt16
  | .ok (.PubAck a) => some a.pkid
  | _ => none

/-- The history of a sender and a receiver. The list holds the messages handed to the sender. On each
connection the sender writes all pending messages, each with DUP set or not, of which the receiver gets
the first `k` bytes; it reads as long as bytes are consumed, and writes a PUBACK for each message read, of
which the sender gets the first `j` bytes; it reads and drops the messages acknowledged. -/
inductive Retries (mode : StrMode) (toReceiver toSender : Option Nat) : List Publish → Retry → Prop
  | start : Retries mode toReceiver toSender [] { pending := [], received := [] }
  | submit {all : List Publish} {s : Retry} {m : Publish} : Retries mode toReceiver toSender all s →
      m.qos = .AtLeastOnce → (∀ p ∈ s.pending, p.pkid ≠ m.pkid) →
      (∃ n w, (Packet.Publish m).write [] = (.ok n, w) ∧
        Packet.read mode toReceiver w = (.ok (norm (.Publish m)), [])) →
      Retries mode toReceiver toSender (all ++ [m]) { s with pending := s.pending ++ [m] }
  | connection {all : List Publish} {s : Retry} {dup : Publish → Bool} {b a torn torn' : Bytes}
      {os os' : List (Out Packet)} {k j : Nat} : Retries mode toReceiver toSender all s →
      WriteAll (s.pending.map fun p => .Publish { p with dup := dup p }) [] b → k ≤ b.length →
      Drains mode toReceiver (b.take k) os torn →
      WriteAll ((os.filterMap messageIn).map ackOf) [] a → j ≤ a.length →
      Drains mode toSender (a.take j) os' torn' →
      Retries mode toReceiver toSender all {
        pending := s.pending.filter fun p => !(os'.filterMap ackedIn).contains p.pkid
        received := s.received ++ os.filterMap messageIn }

/-- The message as the receiver reads it, if it was sent with this DUP flag. -/
def arrival (m : Publish) (dup : Bool) : Publish :=
  { m with dup := dup, properties := normProps PublishProperties.toList m.properties }

end Spec
