import Verif.Spec.Api
/-
Vocabulary for C68: receivers that fetch bytes into a buffer, and what they hold.
-/
namespace Spec

open Mqtt (Bytes StrMode Packet Out)

/-- The longest frame that a size limit lets pass: one byte, four bytes of remaining length, and the
body; without a limit the four bytes are the limit. -/
def longest (max : Option Nat) : Nat := max.getD 268435455 + 5

/-- The buffers of a receiver that starts with an empty buffer, calls `Packet::read` on it any
number of times, and when `InsufficientBytes(k)` is returned appends bytes `x` to what the call left
behind. Which `x`, this is a matter of the receiver: `fetch before after k x`. -/
inductive Holding (mode : StrMode) (max : Option Nat)
    (fetch : Bytes → Bytes → Nat → Bytes → Prop) : Bytes → Prop
  | start : Holding mode max fetch []
  | read {b : Bytes} : Holding mode max fetch b → Holding mode max fetch (Packet.read mode max b).2
  | fetch {b b' x : Bytes} {k : Nat} : Holding mode max fetch b →
      Packet.read mode max b = (.err (.InsufficientBytes k), b') → fetch b b' k x →
      Holding mode max fetch (b' ++ x)

/-- At most `c` bytes, and only if the call has left the buffer as it was. -/
def Careful (c : Nat) (b b' : Bytes) (_k : Nat) (x : Bytes) : Prop := b' = b ∧ x.length ≤ c

/-- At most `c` bytes whenever the call asks for bytes. -/
def Careless (c : Nat) (_b _b' : Bytes) (_k : Nat) (x : Bytes) : Prop := x.length ≤ c

/-- Exactly as many bytes as asked for. -/
def Exactly (_b _b' : Bytes) (k : Nat) (x : Bytes) : Prop := x.length = k

/-- A receiver that fetches exactly the bytes it is asked for, until something else is returned or
the buffer has changed: with `b` in the buffer and `s` to be fetched, it makes `n` calls, the last
returns `o` and leaves `b'`, and `s'` is still to be fetched. -/
inductive Fetch (mode : StrMode) (max : Option Nat) :
    Bytes → Bytes → Nat → Out Packet → Bytes → Bytes → Prop
  | done {b s b' : Bytes} {o : Out Packet} : Packet.read mode max b = (o, b') →
      (¬ ∃ k, o = .err (.InsufficientBytes k) ∧ b' = b) → Fetch mode max b s 1 o b' s
  | more {b x s b' s' : Bytes} {k n : Nat} {o : Out Packet} :
      Packet.read mode max b = (.err (.InsufficientBytes k), b) → x.length = k →
      Fetch mode max (b ++ x) s n o b' s' → Fetch mode max b (x ++ s) (n + 1) o b' s'

end Spec
