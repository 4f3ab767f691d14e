import Verif.Spec.Content
/-
How far the library reads a well-formed property section of PUBLISH or SUBSCRIBE. It counts each
subscription identifier as one byte too long, and stops when its count reaches the announced
length: that is, as soon as it has read as many subscription identifiers as bytes of the section
are left.
-/
namespace Spec

open Mqtt (Bytes)

/-- In the section with the properties `ps` on the bytes `ws`, the properties `pre` on `w1` are
read and the bytes `w2` are left. -/
structure Stops (ps : List Property) (ws : Bytes) (pre : List Property) (w1 w2 : Bytes) : Prop where
  /-- `pre` is a beginning of `ps`, and what is left are the other properties. -/
  props : ∃ post, ps = pre ++ post ∧ SeqRep PropRep post w2
  bytes : ws = w1 ++ w2
  read : SeqRep PropRep pre w1
  /-- No more bytes are left than subscription identifiers were read. -/
  full : w2.length ≤ subIds pre
  /-- Before the last property that was read, more bytes were left. -/
  first : ∀ init lst wa wb, pre = init ++ [lst] → w1 = wa ++ wb → SeqRep PropRep init wa →
    PropRep lst wb → subIds init < wb.length + w2.length

/-- Nothing is left unread: at each property, fewer subscription identifiers precede it than bytes
of the section follow (the property itself included). -/
def NoLoss (ps : List Property) (ws : Bytes) : Prop :=
  ∀ pre p post w1 w2, ps = pre ++ p :: post → ws = w1 ++ w2 → SeqRep PropRep pre w1 →
    SeqRep PropRep (p :: post) w2 → subIds pre < w2.length

end Spec
