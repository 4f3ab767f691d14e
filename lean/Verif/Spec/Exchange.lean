import Verif.Spec.Journal
/-
Vocabulary for C88: QoS 2 messages when sender and receiver crash.
-/
namespace Spec

open Mqtt

/-- The files of the sender and of the receiver. They have no other memory. -/
structure Ends where
  sender : Bytes
  receiver : Bytes

/-- What the sender has not completed according to what is read from its file: a PUBLISH is a message handed
over, a PUBREC is noted, and a PUBCOMP completes a message. -/
def recall (pending : List (Publish × Bool)) : List (Out Packet) → List (Publish × Bool)
  | [] => pending
  | .ok (.Publish p) :: os => recall (pending ++ [(p, false)]) os
  | o :: os => recall (settle pending [o]) os

/-- What the sender writes to its file for a result of `read`. -/
def settled : Out Packet → Option Packet
  | .ok (.PubRec a) => some (.PubRec a)
  | .ok (.PubComp a) => some (.PubComp a)
  | _ => none

/-- The history of a sender and a receiver that both keep files. A message is handed over by writing it to
the sender's file. In a round the sender sends what is to be sent according to its file; the receiver appends
what it reads to its file, and only then writes its answers; the sender appends those it reads to its file,
and only then is there another round. In a crash of either of them, of what is being appended the part behind
some place is lost; what is left of the file is read for as long as packets are found, and the rest is cut
off. -/
inductive Exchanges (mode : StrMode) (toReceiver toSender : Option Nat) : List Publish → Ends → Prop
  | start : Exchanges mode toReceiver toSender [] { sender := [], receiver := [] }
  | submit {all : List Publish} {s : Ends} {m : Publish} {n n' : Nat} {w file : Bytes}
      {os : List (Out Packet)} : Exchanges mode toReceiver toSender all s →
      Drains mode none s.sender os [] → (∀ x ∈ recall [] os, x.1.pkid ≠ m.pkid) →
      m.qos = .ExactlyOnce → norm (.Publish m) = .Publish m → (Packet.Publish m).write [] = (.ok n, w) →
      Packet.read mode toReceiver w = (.ok (.Publish m), []) →
      (Packet.Publish m).write s.sender = (.ok n', file) →
      Exchanges mode toReceiver toSender (all ++ [m]) { s with sender := file }
  | submitCrash {all : List Publish} {s : Ends} {m : Publish} {n n' l : Nat} {w file rest : Bytes}
      {os : List (Out Packet)} : Exchanges mode toReceiver toSender all s →
      m.qos = .ExactlyOnce → norm (.Publish m) = .Publish m → (Packet.Publish m).write [] = (.ok n, w) →
      Packet.read mode toReceiver w = (.ok (.Publish m), []) →
      (Packet.Publish m).write s.sender = (.ok n', file) → s.sender.length ≤ l → l < file.length →
      Drains mode none (file.take l) os rest →
      Exchanges mode toReceiver toSender all { s with sender := file.take (l - rest.length) }
  | round {all : List Publish} {s : Ends} {dup : Publish → Bool} {b a torn torn' sender receiver : Bytes}
      {os1 os2 os os' : List (Out Packet)} {k j : Nat} : Exchanges mode toReceiver toSender all s →
      Drains mode none s.sender os1 [] → Drains mode none s.receiver os2 [] →
      WriteAll ((recall [] os1).map (toSend dup)) [] b → k ≤ b.length →
      Drains mode toReceiver (b.take k) os torn →
      WriteAll (os.filterMap noted) s.receiver receiver →
      WriteAll (handle (handle [] os2).1 os).2.2 [] a → j ≤ a.length →
      Drains mode toSender (a.take j) os' torn' →
      WriteAll (os'.filterMap settled) s.sender sender →
      Exchanges mode toReceiver toSender all { sender := sender, receiver := receiver }
  | receiverCrash {all : List Publish} {s : Ends} {dup : Publish → Bool} {b torn rest receiver : Bytes}
      {os1 os os' : List (Out Packet)} {k l : Nat} : Exchanges mode toReceiver toSender all s →
      Drains mode none s.sender os1 [] →
      WriteAll ((recall [] os1).map (toSend dup)) [] b → k ≤ b.length →
      Drains mode toReceiver (b.take k) os torn →
      WriteAll (os.filterMap noted) s.receiver receiver → s.receiver.length ≤ l → l ≤ receiver.length →
      Drains mode none (receiver.take l) os' rest →
      Exchanges mode toReceiver toSender all { s with receiver := receiver.take (l - rest.length) }
  | senderCrash {all : List Publish} {s : Ends} {dup : Publish → Bool}
      {b a torn torn' rest sender receiver : Bytes} {os1 os2 os os' os3 : List (Out Packet)} {k j l : Nat} :
      Exchanges mode toReceiver toSender all s →
      Drains mode none s.sender os1 [] → Drains mode none s.receiver os2 [] →
      WriteAll ((recall [] os1).map (toSend dup)) [] b → k ≤ b.length →
      Drains mode toReceiver (b.take k) os torn →
      WriteAll (os.filterMap noted) s.receiver receiver →
      WriteAll (handle (handle [] os2).1 os).2.2 [] a → j ≤ a.length →
      Drains mode toSender (a.take j) os' torn' →
      WriteAll (os'.filterMap settled) s.sender sender → s.sender.length ≤ l → l ≤ sender.length →
      Drains mode none (sender.take l) os3 rest →
      Exchanges mode toReceiver toSender all {
        sender := sender.take (l - rest.length), receiver := receiver }

end Spec
