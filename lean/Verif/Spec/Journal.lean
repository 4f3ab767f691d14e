import Verif.Spec.Once
/-
Vocabulary for C87: QoS 2 messages to a receiver that crashes.
-/
namespace Spec

open Mqtt

/-- What the sender has not completed, as for C85, and the receiver's file. The receiver has no other
memory. -/
structure Journal where
  pending : List (Publish × Bool)
  file : Bytes

/-- What the receiver writes to its file for a result of `read`. -/
def noted : Out Packet → Option Packet
  | .ok (.Publish p) => some (.Publish p)
  | .ok (.PubRel a) => some (.PubRel a)
  | _ => none

/-- The history of a sender and of a receiver that keeps a file of what it has read. What the receiver
remembers, and which messages it has passed on, is what `handle` gives for the packets in the file. In a round
it reads what has arrived, appends that to the file, syncs the file, and only then writes its answers. In a
round in which it crashes before the sync is complete, no answer is written, and of what has been appended
the part behind some place is lost; what is left of the file is read for as long as packets are found, and the
rest is cut off. -/
inductive Journals (mode : StrMode) (toReceiver toSender : Option Nat) : List Publish → Journal → Prop
  | start : Journals mode toReceiver toSender [] { pending := [], file := [] }
  | submit {all : List Publish} {s : Journal} {m : Publish} : Journals mode toReceiver toSender all s →
      m.qos = .ExactlyOnce → norm (.Publish m) = .Publish m → (∀ x ∈ s.pending, x.1.pkid ≠ m.pkid) →
      (∃ n w, (Packet.Publish m).write [] = (.ok n, w) ∧
        Packet.read mode toReceiver w = (.ok (.Publish m), [])) →
      Journals mode toReceiver toSender (all ++ [m]) { s with pending := s.pending ++ [(m, false)] }
  | round {all : List Publish} {s : Journal} {dup : Publish → Bool} {b a torn torn' file : Bytes}
      {os0 os os' : List (Out Packet)} {k j : Nat} : Journals mode toReceiver toSender all s →
      Drains mode none s.file os0 [] →
      WriteAll (s.pending.map (toSend dup)) [] b → k ≤ b.length →
      Drains mode toReceiver (b.take k) os torn →
      WriteAll (os.filterMap noted) s.file file →
      WriteAll (handle (handle [] os0).1 os).2.2 [] a → j ≤ a.length →
      Drains mode toSender (a.take j) os' torn' →
      Journals mode toReceiver toSender all { pending := settle s.pending os', file := file }
  | crash {all : List Publish} {s : Journal} {dup : Publish → Bool} {b torn rest file : Bytes}
      {os os' : List (Out Packet)} {k l : Nat} : Journals mode toReceiver toSender all s →
      WriteAll (s.pending.map (toSend dup)) [] b → k ≤ b.length →
      Drains mode toReceiver (b.take k) os torn →
      WriteAll (os.filterMap noted) s.file file → s.file.length ≤ l → l ≤ file.length →
      Drains mode none (file.take l) os' rest →
      Journals mode toReceiver toSender all { s with file := file.take (l - rest.length) }

end Spec
