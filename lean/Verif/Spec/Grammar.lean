import Verif.Spec.PropSets
import Verif.Spec.Utf8
/-
Property sections as they may appear on the wire.
-/
namespace Spec

open Mqtt (Bytes StrMode)

/-- `w` is a wire form of `p`: `p.enc`, except that the number in a subscription identifier may
be padded. -/
def PropRep (p : Property) (w : Bytes) : Prop :=
  p.Fits ∧
  match p with
  | .subscriptionIdentifier n => ∃ v, VarintRep v n ∧ w = 0x0B :: v
  | p => w = p.enc

/-- The text values of `p` are acceptable for the build feature. -/
def Property.TextsOk (mode : StrMode) (p : Property) : Prop := ∀ s ∈ p.texts, TextOk mode s

/-- A property the decoder accepts in a packet that allows the identifiers `ids`. -/
def Property.Ok (mode : StrMode) (ids : List UInt8) (p : Property) : Prop :=
  p.id ∈ ids ∧ p.TextsOk mode

/-- The library's miscount: each subscription identifier is counted one byte too long. -/
def Property.drift : Property → Nat
  | .subscriptionIdentifier _ => 1
  | _ => 0

/-- How the library walks through a property section announced as `plen` bytes: from cursor `c`
over the properties `ps` on the wire `ws` to cursor `c'`; a further property is read only while
the cursor is below `plen`. -/
inductive Run (plen : Nat) : Nat → List Property → Bytes → Nat → Prop
  | nil (c : Nat) : Run plen c [] [] c
  | cons {c c' : Nat} {p : Property} {w : Bytes} {ps : List Property} {ws : Bytes} :
      c < plen → PropRep p w → Run plen (c + w.length + p.drift) ps ws c' →
      Run plen c (p :: ps) (w ++ ws) c'

/-- Number of subscription identifiers in a list. -/
def subIds (l : List Property) : Nat := (all Property.subscriptionIdentifier? l).length

/-- The miscount does no harm: at each property, fewer subscription identifiers precede it than
bytes of the section are left. -/
def DriftSafe (ps : List Property) : Prop :=
  ∀ pre p post, ps = pre ++ p :: post → subIds pre < (encProps (p :: post)).length

end Spec
