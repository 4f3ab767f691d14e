import Verif.Spec.Retry
/-
Vocabulary for C86: QoS 1 messages from a sender that crashes.
-/
namespace Spec

open Mqtt

/-- The sender's file, how much of it is sure to survive a crash, the messages handed over so far, and the
messages that the receiver has read. -/
structure Outbox where
  file : Bytes
  synced : Nat
  submitted : List Publish
  received : List Publish

/-- The pending messages according to what is read from the file: each PUBLISH is one, until a PUBACK with
its identifier. -/
def replay (pending : List Publish) : List (Out Packet) → List Publish
  | [] => pending
  | .ok (.Publish p) :: os => replay (pending ++ [p]) os
  | .ok (.PubAck a) :: os => replay (pending.filter fun p => p.pkid ≠ a.pkid) os
  | _ :: os => replay pending os

/-- The PUBACK in a result of `read`. -/
def ackIn : Out Packet → Option Packet
  | .ok (.PubAck a) => some (.PubAck a)
  | _ => none

/-- The history of a sender that keeps a file, and of a receiver. A message is handed over by writing it to
the file; the list holds the messages that are safe because they were in the file when it was synced. The
file may be replaced, at one stroke, by one that holds only the pending messages. On a connection
the sender writes the pending messages, each with DUP set or not, of which the receiver gets the first `k`
bytes; it writes a PUBACK for each message read, of which the sender gets the first `j` bytes and writes
those read to the file. In a crash of the sender all of the file behind some place is lost, but nothing that
has been synced; what is left is read for as long as packets are found, and the rest is cut off. -/
inductive Outboxes (mode : StrMode) (toReceiver toSender : Option Nat) : List Publish → Outbox → Prop
  | start : Outboxes mode toReceiver toSender [] {
      file := [], synced := 0, submitted := [], received := [] }
  | submit {safe : List Publish} {s : Outbox} {m : Publish} {n n' : Nat} {os : List (Out Packet)}
      {w file : Bytes} : Outboxes mode toReceiver toSender safe s →
      Drains mode none s.file os [] → (∀ p ∈ replay [] os, p.pkid ≠ m.pkid) → m.qos = .AtLeastOnce →
      norm (.Publish m) = .Publish m → (Packet.Publish m).write [] = (.ok n, w) →
      Packet.read mode toReceiver w = (.ok (.Publish m), []) →
      (Packet.Publish m).write s.file = (.ok n', file) →
      Outboxes mode toReceiver toSender safe { s with file := file, submitted := s.submitted ++ [m] }
  | sync {safe : List Publish} {s : Outbox} {os : List (Out Packet)} :
      Outboxes mode toReceiver toSender safe s → Drains mode none s.file os [] →
      Outboxes mode toReceiver toSender (safe ++ os.filterMap messageIn) {
        s with synced := s.file.length }
  | compact {safe : List Publish} {s : Outbox} {os : List (Out Packet)} {file : Bytes} :
      Outboxes mode toReceiver toSender safe s → Drains mode none s.file os [] →
      WriteAll ((replay [] os).map .Publish) [] file →
      Outboxes mode toReceiver toSender (safe ++ os.filterMap messageIn) {
        s with file := file, synced := file.length }
  | connection {safe : List Publish} {s : Outbox} {dup : Publish → Bool} {b a torn torn' file : Bytes}
      {os0 os os' : List (Out Packet)} {k j : Nat} : Outboxes mode toReceiver toSender safe s →
      Drains mode none s.file os0 [] →
      WriteAll ((replay [] os0).map fun p => .Publish { p with dup := dup p }) [] b → k ≤ b.length →
      Drains mode toReceiver (b.take k) os torn →
      WriteAll ((os.filterMap messageIn).map ackOf) [] a → j ≤ a.length →
      Drains mode toSender (a.take j) os' torn' →
      WriteAll (os'.filterMap ackIn) s.file file →
      Outboxes mode toReceiver toSender safe {
        s with file := file, received := s.received ++ os.filterMap messageIn }
  | crash {safe : List Publish} {s : Outbox} {os : List (Out Packet)} {torn : Bytes} {k : Nat} :
      Outboxes mode toReceiver toSender safe s → s.synced ≤ k → k ≤ s.file.length →
      Drains mode none (s.file.take k) os torn →
      Outboxes mode toReceiver toSender safe { s with file := s.file.take (k - torn.length) }

end Spec
