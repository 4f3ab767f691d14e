import Verif.Spec.Diagnose
/-
Vocabulary for the readers and writers of single packet types and of parts of packets, called
directly, without `Packet`.
-/
namespace Spec

open Mqtt (Bytes StrMode Packet Out FixedHeader)

/-- The result of a call, with its value put into an enum. -/
def wrapped {α β : Type} (f : α → β) : Out α → Out β
  | .ok a => .ok (f a)
  | .err e => .err e
  | .panic => .panic
  | .diverge => .diverge

/-- `reader`, called with a header `b1'` and the bytes of a frame of the given type (header bytes
first, whatever they are), returns what `Packet::read` returns for that frame, whenever the first
byte is the same as far as `same` is concerned. -/
def Agrees {α : Type} (mode : StrMode) (type : Nat) (same : UInt8 → UInt8 → Prop)
    (reader : FixedHeader → Mqtt.M α) (wrap : α → Packet) : Prop :=
  ∀ (b1 b1' : UInt8) (v hdr body : Bytes), b1.toNat / 16 = type → VarintRep v body.length →
    body ≠ [] → hdr ≠ [] → same b1 b1' →
    (Packet.read mode none (b1 :: (v ++ body))).1 =
      wrapped wrap (reader (FixedHeader.new b1' (hdr.length - 1) body.length) (hdr ++ body)).1

/-- The low four bits of two bytes are the same. -/
def SameFlags (b1 b1' : UInt8) : Prop := b1.toNat % 16 = b1'.toNat % 16

/-- Reader and writer of a property record. The writer succeeds exactly if every value is
representable and the section is within the protocol's limit; then it appends the section, and
otherwise it returns an error and the buffer still starts with what it held. From the section,
whatever follows it, the reader returns the record (nothing for an empty one) and leaves what
follows; `cond` is a condition on the record for that. -/
def RecordIO {α : Type} (mode : StrMode) (cond : α → Prop) (toList : α → List Property)
    (write : α → Mqtt.M Unit) (read : Mqtt.M (Option α)) : Prop :=
  ∀ (p : α) (b : Bytes),
    let fits := (∀ q ∈ toList p, q.Fits) ∧ (encProps (toList p)).length ≤ maxVarint
    (fits → write p b = (.ok (), b ++ propSection (toList p))) ∧
    (¬ fits → ∃ e w, write p b = (.err e, b ++ w)) ∧
    (fits → (∀ q ∈ toList p, q.TextsOk mode) → cond p → ∀ rest,
      read (propSection (toList p) ++ rest) = (.ok (if toList p = [] then none else some p), rest))

/-- The will can be written: its properties are representable and within the limit, topic and
message are not too long. -/
def WillFits (w : Mqtt.LastWill) : Prop :=
  (∀ q ∈ optList LastWillProperties.toList w.properties, q.Fits) ∧
    (encProps (optList LastWillProperties.toList w.properties)).length ≤ maxVarint ∧
    w.topic.length ≤ 65535 ∧ w.message.length ≤ 65535

end Spec
