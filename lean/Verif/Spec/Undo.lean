import Verif.Spec.Api
/-
Vocabulary for C76: a sender that takes back what a refused packet left in the buffer.
-/
namespace Spec

open Mqtt

/-- Packets offered to `write` one after the other, with the buffer before, the packets accepted and
the buffer after. When a packet is refused the buffer is cut back to the length it had before. -/
inductive Sends : List Packet → Bytes → List Packet → Bytes → Prop
  | nil (b : Bytes) : Sends [] b [] b
  | accepted {p : Packet} {ps acc : List Packet} {b b1 b2 : Bytes} {n : Nat} :
      p.write b = (.ok n, b1) → Sends ps b1 acc b2 → Sends (p :: ps) b (p :: acc) b2
  | refused {p : Packet} {ps acc : List Packet} {b b1 b2 : Bytes} {e : Err} :
      p.write b = (.err e, b1) → Sends ps (b1.take b.length) acc b2 → Sends (p :: ps) b acc b2

/-- Whether `write` accepts the packet when the buffer is empty. -/
def acceptable (p : Packet) : Bool :=
  match (p.write []).1 with
  | .ok _ => true
  | _ => false

end Spec
