import Verif.Spec.Api
/-
Vocabulary for C69: a user who splits a stream into frames with `check` and `frame_length()`, and
decodes them later or not at all.
-/
namespace Spec

open Mqtt (Bytes FixedHeader)

/-- `check` is called on the buffer, and as long as it succeeds, `frame_length()` bytes are taken
off: the headers and the pieces, and what is left when `check` fails. -/
inductive Splits (max : Option Nat) : Bytes → List (FixedHeader × Bytes) → Bytes → Prop
  | stop {b : Bytes} {e : Mqtt.Err} : Mqtt.check b max = .err e → Splits max b [] b
  | step {b r : Bytes} {fh : FixedHeader} {fs : List (FixedHeader × Bytes)} :
      Mqtt.check b max = .ok fh → Splits max (b.drop fh.frame_length) fs r →
      Splits max b ((fh, b.take fh.frame_length) :: fs) r

/-- The bytes arrive in chunks, and after each chunk the buffer is split. -/
inductive SplitFeeds (max : Option Nat) :
    Bytes → List Bytes → List (FixedHeader × Bytes) → Bytes → Prop
  | nil (b : Bytes) : SplitFeeds max b [] [] b
  | cons {b c b1 b2 : Bytes} {cs : List Bytes} {fs1 fs2 : List (FixedHeader × Bytes)} :
      Splits max (b ++ c) fs1 b1 → SplitFeeds max b1 cs fs2 b2 →
      SplitFeeds max b (c :: cs) (fs1 ++ fs2) b2

end Spec
