import Verif.Spec.Mqtt5
/-
Vocabulary for C67: a stream of MQTT 5 control packets, by the standard alone.
-/
namespace Spec

open Mqtt (Bytes Packet)

/-- The bytes are frames that conform to MQTT 5, one behind the other, and stand for these packets.
-/
inductive Stream5 : Bytes → List Packet → Prop
  | nil : Stream5 [] []
  | cons {f s : Bytes} {p : Packet} {ps : List Property} {qs : List Packet} :
      Conforms f p ps → Stream5 s qs → Stream5 (f ++ s) (p :: qs)

end Spec
