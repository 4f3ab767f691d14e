import Verif.Spec.Mqtt5
import Verif.Model.Packet
/-
Vocabulary for C65: a strict check of MQTT 5 frames by means of this library.
-/
namespace Spec

open Mqtt (Bytes StrMode Packet Out)

/-- The check a user can make with the library: `f` is decoded in whole to `p`, writing `p` into an
empty buffer yields `f` again, and the values in `p` are those MQTT 5 permits. -/
def StrictCheck (mode : StrMode) (f : Bytes) (p : Packet) : Prop :=
  Packet.read mode none f = (.ok p, []) ∧ (∃ k, p.write [] = (.ok k, f)) ∧ Values5 p

end Spec
