import Verif.Spec.Retry
/-
Vocabulary for C85: QoS 2 messages and connections that break (MQTT 5, 4.3.3 and 4.4).
-/
namespace Spec

open Mqtt

/-- What the sender has not completed: the messages, and for each whether its PUBREC has come; the packet
identifiers that the receiver has to remember; and the messages that it has passed on. -/
structure Once where
  pending : List (Publish × Bool)
  seen : List UInt16
  received : List Publish

/-- What the sender sends for a message: the PUBLISH as long as its PUBREC has not come, then the PUBREL. -/
def toSend (dup : Publish → Bool) : Publish × Bool → Packet
  | (p, false) => .Publish { p with dup := dup p }
  | (p, true) => .PubRel { pkid := p.pkid, reason := .Success, properties := none }

/-- The receiver: a message is passed on unless its identifier is remembered, and answered with PUBREC;
a PUBREL makes it forget the identifier, and is answered with PUBCOMP. The result is what it then
remembers, the messages passed on and the answers. -/
def handle (seen : List UInt16) : List (Out Packet) → List UInt16 × List Publish × List Packet
  | [] => (seen, [], [])
  | .ok (.Publish p) :: os =>
    let answer := .PubRec { pkid := p.pkid, reason := .Success, properties := none }
    if p.pkid ∈ seen then
      let r := handle seen os
      (r.1, r.2.1, answer :: r.2.2)
    else
      let r := handle (p.pkid :: seen) os
      (r.1, p :: r.2.1, answer :: r.2.2)
  | .ok (.PubRel a) :: os =>
    let r := handle (seen.filter fun k => k ≠ a.pkid) os
    (r.1, r.2.1, .PubComp { pkid := a.pkid, reason := .Success, properties := none } :: r.2.2)
  | _ :: os => handle seen os

/-- The sender: a PUBREC is noted, and a PUBCOMP completes a message. -/
def settle (pending : List (Publish × Bool)) : List (Out Packet) → List (Publish × Bool)
  | [] => pending
  | .ok (.PubRec a) :: os =>
    settle (pending.map fun x => if x.1.pkid = a.pkid then (x.1, true) else x) os
  | .ok (.PubComp a) :: os =>
    settle (pending.filter fun x => ¬ (x.2 = true ∧ x.1.pkid = a.pkid)) os
  | _ :: os => settle pending os

/-- The history of a sender and a receiver. The list holds the messages handed to the sender. In each round
the sender writes what is to be sent for each pending message, of which the receiver gets the first `k`
bytes; it reads as long as bytes are consumed, and writes its answers, of which the sender gets the first
`j` bytes and reads them. A connection on which several rounds are complete and one breaks is so many
rounds. -/
inductive Rounds (mode : StrMode) (toReceiver toSender : Option Nat) : List Publish → Once → Prop
  | start : Rounds mode toReceiver toSender [] { pending := [], seen := [], received := [] }
  | submit {all : List Publish} {s : Once} {m : Publish} : Rounds mode toReceiver toSender all s →
      m.qos = .ExactlyOnce → (∀ x ∈ s.pending, x.1.pkid ≠ m.pkid) →
      (∃ n w, (Packet.Publish m).write [] = (.ok n, w) ∧
        Packet.read mode toReceiver w = (.ok (norm (.Publish m)), [])) →
      Rounds mode toReceiver toSender (all ++ [m]) { s with pending := s.pending ++ [(m, false)] }
  | round {all : List Publish} {s : Once} {dup : Publish → Bool} {b a torn torn' : Bytes}
      {os os' : List (Out Packet)} {k j : Nat} : Rounds mode toReceiver toSender all s →
      WriteAll (s.pending.map (toSend dup)) [] b → k ≤ b.length →
      Drains mode toReceiver (b.take k) os torn →
      WriteAll (handle s.seen os).2.2 [] a → j ≤ a.length →
      Drains mode toSender (a.take j) os' torn' →
      Rounds mode toReceiver toSender all {
        pending := settle s.pending os'
        seen := (handle s.seen os).1
        received := s.received ++ (handle s.seen os).2.1 }

end Spec
