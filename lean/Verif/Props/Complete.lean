import Verif.Spec.Complete
import Verif.Props.Framing
import Verif.Props.Grammar
import Verif.Props.Diagnose
import Verif.Props.Layout
/-
C53: the specification leaves nothing open.
-/
namespace Props

open Mqtt Spec

/-- C53: `Packet::read` is a decoder in the sense of the specification, and every function that is
one gives the same result and leaves the same rest, on every input. -/
theorem C53_read (mode : StrMode) (max : Option Nat) :
    IsDecoder mode max (Packet.read mode max) ∧
    ∀ read, IsDecoder mode max read → ∀ b, read b = Packet.read mode max b := by
  refine ⟨⟨fun b r p => C40_read_iff mode max b r p, fun b r e => C44_exact_error mode max b r e⟩, ?_⟩
  intro read h b
  rcases C13_read_total mode max b with ⟨p, hp⟩ | ⟨e, he⟩
  · have h1 : Packet.read mode max b = (.ok p, (Packet.read mode max b).2) := Prod.ext hp rfl
    rw [h1]
    exact (h.delivers _ _ _).2 ((C40_read_iff mode max b _ p).1 h1)
  · have h1 : Packet.read mode max b = (.err e, (Packet.read mode max b).2) := Prod.ext he rfl
    rw [h1]
    exact (h.reports _ _ _).2 ((C44_exact_error mode max b _ e).1 h1)

/-- C53: the same for `Packet::write`. -/
theorem C53_write :
    IsEncoder Packet.write ∧
    ∀ write, IsEncoder write → ∀ p b, write p b = p.write b := by
  refine ⟨⟨C49_ok, C49_failed, C49_panic⟩, ?_⟩
  intro write h p b
  rcases hx : p.write b with ⟨o, b'⟩
  cases o with
  | ok n => exact (h.appends _ _ _ _).2 ((C49_ok p b b' n).1 hx)
  | err e => exact (h.refuses _ _ _ _).2 ((C49_failed p b b' e).1 hx)
  | panic => exact (h.panics _ _ _).2 ((C49_panic p b b').1 hx)
  | diverge => exact absurd (congrArg Prod.fst hx) (write_not_diverge p b)

/-- A decoder that, like the library, is right about every stream but leaves the frame of a PINGREQ in
the stream is not one. -/
example : ¬ IsDecoder .utf8 none (fun b =>
    if b = [0xC0, 0] then (.ok .PingReq, b) else Packet.read .utf8 none b) := by
  intro h
  have := (C53_read .utf8 none).2 _ h [0xC0, 0]
  exact absurd this (by decide +kernel)

end Props
