import Verif.Spec.Diagnose
import Verif.Spec.Layout
/-
The specification of `Packet::read` and `Packet::write` as a whole.
-/
namespace Spec

open Mqtt

/-- What a decoder must do: deliver the packet whose frame begins the stream, if there is an
admissible one, and nothing else; report the first defect, and only that. -/
structure IsDecoder (mode : StrMode) (max : Option Nat) (read : Bytes → Out Packet × Bytes) :
    Prop where
  delivers : ∀ b r p, read b = (.ok p, r) ↔
    ∃ f n, b = f ++ r ∧ RemLen f n ∧ Admits max n ∧ FrameRep mode f p
  reports : ∀ b r e, read b = (.err e, r) ↔
    (r = b ∧ HeadErr max b e) ∨
    ∃ b1 v body, b = b1 :: (v ++ (body ++ r)) ∧ VarintRep v body.length ∧
      Admits max body.length ∧ FrameErr mode b1.toNat body e

/-- What an encoder must do: append the pieces of the packet, up to the first that cannot be
written. -/
structure IsEncoder (write : Packet → Bytes → Out Nat × Bytes) : Prop where
  appends : ∀ p b b' n, write p b = (.ok n, b') ↔ ∃ w, allWritten (layout p) w ∧
    n = 1 + (varint (announced p)).length + announced p ∧ b' = patch p (b ++ w)
  refuses : ∀ p b b' e, write p b = (.err e, b') ↔ ∃ L x R w, layout p = L ++ x :: R ∧
    allWritten L w ∧ x.written = .err e ∧ b' = b ++ w
  panics : ∀ p b b', write p b = (.panic, b') ↔ ∃ L R w, layout p = L ++ .code none :: R ∧
    allWritten L w ∧ b' = b ++ w

end Spec
