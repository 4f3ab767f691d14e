import Verif.Model.UsizeEnc
/-
When arithmetic on `usize` is right.
-/
namespace Spec

open Mqtt

/-- The computation `x` yields `n` if `n` is a `usize` of `w` bits. If it is not, a build with
overflow checks panics. -/
def Checked (m : Build) (w : Nat) (x : Out Nat) (n : Nat) : Prop :=
  (n < 2 ^ w → x = .ok n) ∧ (2 ^ w ≤ n → m = .debug → x = .panic)

end Spec
