import Verif.Model.CostWrite
import Verif.Spec.Work
/-
What C58 is about: the number of loop iterations a call of `Packet::write` executes.
-/
namespace Spec

open Mqtt

/-- The number of loop iterations executed by `Packet::write` for the packet `p` and a buffer that
holds `b`. -/
def writeWork (p : Packet) (b : Bytes) : Nat := (Packet.writeC p b).2

/-- `WrittenAll ps b b' n`: the packets `ps` are written one after the other into a buffer with `b`;
every call succeeds; at the end the buffer holds `b'`, and `n` loop iterations have been
executed. -/
inductive WrittenAll : List Packet → Bytes → Bytes → Nat → Prop
  | nil {b} : WrittenAll [] b b 0
  | cons {p ps b b1 b' k n} : Packet.write p b = (.ok k, b1) → WrittenAll ps b1 b' n →
      WrittenAll (p :: ps) b b' (writeWork p b + n)

end Spec
