import Verif.Spec.Api
/-
Vocabulary for C75: calls with different limits on one stream.
-/
namespace Spec

open Mqtt

/-- The outcome is a refusal for size. -/
def refused : Out Packet → Bool
  | .err (.PayloadSizeLimitExceeded _ _) => true
  | _ => false

/-- Successive calls on a stream, each with its own limit, with their outcomes, and what is left. -/
inductive Calls (mode : StrMode) : Bytes → List (Option Nat × Out Packet) → Bytes → Prop
  | nil (b : Bytes) : Calls mode b [] b
  | cons {max : Option Nat} {o : Out Packet} {b b1 b2 : Bytes} {cs : List (Option Nat × Out Packet)} :
      Packet.read mode max b = (o, b1) → Calls mode b1 cs b2 → Calls mode b ((max, o) :: cs) b2

end Spec
