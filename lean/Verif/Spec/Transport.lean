import Verif.Spec.Api
/-
A one-way connection: a sender that writes packets into a buffer, bytes that move to the receiver in
portions of any size, and a receiver that calls `Packet::read` whenever it likes.
-/
namespace Spec

open Mqtt (Bytes StrMode Packet Out Err)

/-- The state of the connection. -/
structure Link where
  /-- the packets that `write` has accepted so far -/
  sent : List Packet
  /-- the sender's buffer: written, not yet transferred -/
  outbox : Bytes
  /-- the receiver's buffer: transferred, not yet consumed -/
  inbox : Bytes
  /-- the packets that `read` has returned so far -/
  got : List Packet

/-- Nothing has happened yet. -/
def Link.start : Link := { sent := [], outbox := [], inbox := [], got := [] }

/-- A packet that survives a round trip on its own, and that the receiver's limit admits. -/
def Deliverable (mode : StrMode) (max : Option Nat) (p : Packet) : Prop :=
  StringsOk mode p ∧ Readable p ∧ ¬ Lossy p ∧ Admits max (body p).length

/-- What can happen, in any order. -/
inductive Event (mode : StrMode) (max : Option Nat) (l : Link) : Link → Prop
  /-- A packet is written behind what is in the sender's buffer; a CONNECT only if the buffer is
  empty. -/
  | send {p : Packet} {n : Nat} {b : Bytes} : p.write l.outbox = (.ok n, b) →
      Deliverable mode max p → (IsConnect p → l.outbox = []) →
      Event mode max l { l with sent := l.sent ++ [p], outbox := b }
  /-- A packet is refused; the sender truncates the buffer to the old length. -/
  | refused {p : Packet} {e : Err} {b : Bytes} : p.write l.outbox = (.err e, b) →
      Event mode max l { l with outbox := b.take l.outbox.length }
  /-- Some bytes arrive. -/
  | transfer {x y : Bytes} : l.outbox = x ++ y →
      Event mode max l { l with outbox := y, inbox := l.inbox ++ x }
  /-- The receiver reads a packet. -/
  | receive {p : Packet} {b : Bytes} : Mqtt.Packet.read mode max l.inbox = (.ok p, b) →
      Event mode max l { l with inbox := b, got := l.got ++ [p] }
  /-- The receiver gets an error (and does nothing about it). -/
  | failed {e : Err} {b : Bytes} : Mqtt.Packet.read mode max l.inbox = (.err e, b) →
      Event mode max l { l with inbox := b }

/-- Any number of events. -/
inductive Events (mode : StrMode) (max : Option Nat) : Link → Link → Prop
  | refl (l : Link) : Events mode max l l
  | step {l l1 l2 : Link} : Events mode max l l1 → Event mode max l1 l2 → Events mode max l l2

end Spec
