import Verif.Spec.Diagnose
import Verif.Spec.Layout
/-
Readers of parts of packets, called directly: what it means that such a reader is exactly described
by a grammar of its wire forms and a list of its defects.
-/
namespace Spec

open Mqtt (Bytes StrMode Err M)

/-- `read` returns `a` exactly if the input starts with a wire form of `a`, and leaves what follows
it; it fails with `e` exactly if the input has the defect `e`; it always does one of the two, and what
it leaves is the end of the input. -/
structure ReadsExactly {α : Type} (R : α → Bytes → Prop) (E : Bytes → Err → Prop) (read : M α) :
    Prop where
  ok : ∀ a b r, read b = (.ok a, r) ↔ ∃ u, b = u ++ r ∧ R a u
  err : ∀ b e, (∃ r, read b = (.err e, r)) ↔ E b e
  total : ∀ b, (∃ a, (read b).1 = .ok a) ∨ ∃ e, (read b).1 = .err e
  rest : ∀ b, ∃ u, b = u ++ (read b).2

/-- A property section as the library reads it (`PropSec`), and the record made of it. -/
def RecordRep {α : Type} (mode : StrMode) (ids : List UInt8) (ofList : List Property → α)
    (o : Option α) (s : Bytes) : Prop :=
  ∃ ps, PropSec mode ids ps s ∧ o = ps.map ofList

/-- User name and password: each is present only if its flag is set, and is then a text. -/
def LoginErr (mode : StrMode) (flags : Nat) : Bytes → Err → Prop :=
  Field (FlagField mode (flags / 128 % 2)) (FlagErr mode (flags / 128 % 2)) fun _ =>
    FlagErr mode (flags / 64 % 2)

/-- Whatever is in the buffer, `write` appends the pieces in order, up to the first that cannot be
written, which decides the error; if all can be written it returns `a`. -/
def AppendsPieces {α : Type} (write : M α) (a : α) (L : List Piece) : Prop :=
  ∀ b, write b = (wrapped (fun _ => a) (emit L).1, b ++ (emit L).2)

/-- The flags of a CONNECT that a will stands for. -/
def willBits (w : Mqtt.LastWill) : UInt8 :=
  UInt8.ofNat (4 + 8 * qosNum w.qos + 32 * bit w.retain)

/-- The flags of a CONNECT that a login stands for: a text that is present. -/
def loginBits (l : Mqtt.Login) : UInt8 :=
  UInt8.ofNat (128 * bit (!l.username.isEmpty) + 64 * bit (!l.password.isEmpty))

end Spec
