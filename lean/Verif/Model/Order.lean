import Verif.Model.Basic
/-
Model of the derived orders (`#[derive(PartialOrd)]`, src/lib.rs:302 and 618; `QoS` of mod.rs:11 is
declared like that of src/lib.rs). The derive macro is the compiler's: variants of an enum are
compared by discriminant, structs field by field in the order of declaration.
-/
namespace Mqtt

/-- src/lib.rs:618, `<QoS as PartialOrd>::partial_cmp`: by discriminant (src/lib.rs:621-623). -/
def QoS.partial_cmp (a b : QoS) : Option Ordering := some (compare a.toU8.toNat b.toU8.toNat)

/-- src/lib.rs:302, `<FixedHeader as PartialOrd>::partial_cmp`: by the fields of src/lib.rs:306-313,
the next one only if the ones before are equal. -/
def FixedHeader.partial_cmp (a b : FixedHeader) : Option Ordering :=
  match compare a.byte1.toNat b.byte1.toNat with
  | .eq =>
    match compare a.fixed_header_len b.fixed_header_len with
    | .eq => some (compare a.remaining_len b.remaining_len)
    | o => some o
  | o => some o

/-- The operator `<` of core: `partial_cmp` is `Some(Less)`. -/
def ltOf {α : Type} (cmp : α → α → Option Ordering) (a b : α) : Bool := cmp a b == some .lt

end Mqtt
