/-
The size of a packet and the size of its fixed header.
-/
namespace Spec

/-- MQTT 5, 2.1: the size of the fixed header of a packet of `n` bytes whose remaining length is in
shortest form: the first byte, and one to four bytes for a remaining length below 128, 16384,
2097152 and 268435456. -/
def headerSize (n : Nat) : Nat :=
  if n < 128 + 2 then 2 else if n < 16384 + 3 then 3 else if n < 2097152 + 4 then 4 else 5

end Spec
