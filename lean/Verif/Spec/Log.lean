import Verif.Spec.Api
/-
Vocabulary for C81: a log file of packets, crashes, and recovery.
-/
namespace Spec

open Mqtt (Bytes StrMode Packet Out)

/-- The bytes of a list of packets with their frames. -/
def bytesOf (xs : List (Packet × Bytes)) : Bytes := (xs.map (·.2)).flatten

/-- The life of a log file. A packet is written into an empty buffer, and if the frame reads back as
the packet it is appended to the file. In a crash all behind some place is lost; then the file is read
from the start for as long as packets are found, and what is left is cut off. The list says what was
appended, less as many of the last ones as were not found. -/
inductive Log (mode : StrMode) (max : Option Nat) : List (Packet × Bytes) → Bytes → Prop
  | start : Log mode max [] []
  | append {xs : List (Packet × Bytes)} {b w : Bytes} {p : Packet} {n : Nat} : Log mode max xs b →
      p.write [] = (.ok n, w) → Packet.read mode max w = (.ok (norm p), []) →
      Log mode max (xs ++ [(p, w)]) (b ++ w)
  | crash {xs : List (Packet × Bytes)} {b torn : Bytes} {os : List (Out Packet)} {k : Nat} :
      Log mode max xs b → k ≤ b.length → Drains mode max (b.take k) os torn →
      Log mode max (xs.take os.length) (b.take (k - torn.length))

end Spec
