import Verif.Spec.Wire
/-
The frames that get longer when they are decoded and written again.
-/
namespace Spec

open Mqtt (Bytes)

/-- A PUBACK, PUBREC, PUBREL or PUBCOMP of remaining length 3: packet identifier and a reason code
other than 0 (success), but no property length (MQTT 5, 3.4.2.2.1). -/
def ShortAck (f : Bytes) : Prop :=
  ∃ b1 i j code : UInt8, f = [b1, 3, i, j, code] ∧ b1.toNat / 16 ∈ [4, 5, 6, 7] ∧ code ≠ 0

end Spec
