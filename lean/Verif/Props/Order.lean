import Verif.Model.Order
import Verif.Spec.Codes
import Verif.Props.Typed
import Verif.Props.Forward
/-
C80: comparing QoS levels and fixed headers.
-/
namespace Props

open Mqtt Spec

/-- An order in the sense of Rust's documentation of `Ord`: every two values are comparable, equality
of the comparison is equality of values, it is reversed when the arguments are, and transitive. -/
def TotalOrder {α : Type} (cmp : α → α → Option Ordering) : Prop :=
  (∀ a b, ∃ o, cmp a b = some o ∧ cmp b a = some o.swap) ∧
  (∀ a b, cmp a b = some .eq ↔ a = b) ∧
  (∀ a b c, cmp a b = some .lt → cmp b c = some .lt → cmp a c = some .lt)

/-- C80: the order of QoS levels is a total order, that of their numbers in MQTT. So the level at which
a message is delivered (MQTT 5, 3.8.4: the lower one of publisher and subscriber) is found with `<`. -/
theorem C80_qos :
    TotalOrder QoS.partial_cmp ∧
    (∀ a b, ltOf QoS.partial_cmp a b = true ↔ qosNum a < qosNum b) ∧
    (∀ a b, qosNum (if ltOf QoS.partial_cmp a b then a else b) = min (qosNum a) (qosNum b)) := by
  refine ⟨⟨?_, ?_, ?_⟩, ?_, ?_⟩
  · intro a b; cases a <;> cases b <;> exact ⟨_, rfl, rfl⟩
  · intro a b; cases a <;> cases b <;> decide
  · intro a b c; cases a <;> cases b <;> cases c <;> decide
  · intro a b; cases a <;> cases b <;> decide
  · intro a b; cases a <;> cases b <;> decide

theorem header_cmp (a b : FixedHeader) :
    (a.partial_cmp b = some .lt ↔ a.byte1.toNat < b.byte1.toNat ∨ a.byte1 = b.byte1 ∧
      (a.fixed_header_len < b.fixed_header_len ∨ a.fixed_header_len = b.fixed_header_len ∧
        a.remaining_len < b.remaining_len)) ∧
    (a.partial_cmp b = some .gt ↔ b.byte1.toNat < a.byte1.toNat ∨ a.byte1 = b.byte1 ∧
      (b.fixed_header_len < a.fixed_header_len ∨ a.fixed_header_len = b.fixed_header_len ∧
        b.remaining_len < a.remaining_len)) ∧
    (a.partial_cmp b = some .eq ↔ a = b) := by
  obtain ⟨x, y, z⟩ := a
  obtain ⟨x', y', z'⟩ := b
  have hx : x = x' ↔ x.toNat = x'.toNat := ⟨fun h => by rw [h], UInt8.toNat_inj.1⟩
  simp only [FixedHeader.partial_cmp, FixedHeader.mk.injEq, hx]
  rcases Nat.lt_trichotomy x.toNat x'.toNat with h | h | h
  · rw [Nat.compare_eq_lt.2 h]; simp; omega
  · rw [Nat.compare_eq_eq.2 h]
    rcases Nat.lt_trichotomy y y' with k | k | k
    · rw [Nat.compare_eq_lt.2 k]; simp; omega
    · rw [Nat.compare_eq_eq.2 k]
      simp only [Option.some.injEq, Nat.compare_eq_lt, Nat.compare_eq_gt, Nat.compare_eq_eq]
      omega
    · rw [Nat.compare_eq_gt.2 k]; simp; omega
  · rw [Nat.compare_eq_gt.2 h]; simp; omega

/-- C80: the order of fixed headers is a total order. -/
theorem C80_header : TotalOrder FixedHeader.partial_cmp := by
  refine ⟨fun a b => ?_, fun a b => (header_cmp a b).2.2, fun a b c h1 h2 => ?_⟩
  · have h1 := header_cmp a b
    have h2 := header_cmp b a
    cases h : a.partial_cmp b with
    | none =>
      exfalso
      simp only [FixedHeader.partial_cmp] at h
      split at h
      · split at h <;> simp at h
      · simp at h
    | some o =>
      refine ⟨o, rfl, ?_⟩
      cases o with
      | lt =>
        have := h1.1.1 h
        refine h2.2.1.2 ?_
        rw [eq_comm (a := b.byte1), eq_comm (a := b.fixed_header_len)]
        exact this
      | gt =>
        have := h1.2.1.1 h
        refine h2.1.2 ?_
        rw [eq_comm (a := b.byte1), eq_comm (a := b.fixed_header_len)]
        exact this
      | eq => exact h2.2.2.2 (h1.2.2.1 h).symm
  · have e1 := (header_cmp a b).1.1 h1
    have e2 := (header_cmp b c).1.1 h2
    refine (header_cmp a c).1.2 ?_
    rcases e1 with e1 | ⟨e1, e1'⟩
    · left
      rcases e2 with e2 | ⟨e2, -⟩
      · omega
      · rw [← e2]; exact e1
    · rcases e2 with e2 | ⟨e2, e2'⟩
      · left; rw [e1]; exact e2
      · right; exact ⟨e1.trans e2, by omega⟩

/-- C80: headers of frames whose first bytes differ are in the order of these bytes. -/
theorem C80_first_byte (s t : Bytes) (x y : UInt8) (m m' : Option Nat) (h h' : FixedHeader)
    (hs : check (x :: s) m = .ok h) (ht : check (y :: t) m' = .ok h') (hxy : x ≠ y) :
    h.partial_cmp h' = some (compare x.toNat y.toNat) := by
  obtain ⟨b1, v, bd, rest, he, -, -, rfl, -⟩ := (C45_check_ok _ _ _).1 hs
  obtain ⟨b1', v', bd', rest', he', -, -, rfl, -⟩ := (C45_check_ok _ _ _).1 ht
  obtain ⟨rfl, -⟩ := List.cons.inj he
  obtain ⟨rfl, -⟩ := List.cons.inj he'
  have : x.toNat ≠ y.toNat := fun h => hxy (UInt8.toNat_inj.1 h)
  rcases Nat.lt_trichotomy x.toNat y.toNat with h | h | h
  · simp [FixedHeader.partial_cmp, FixedHeader.new, Nat.compare_eq_lt.2 h]
  · exact absurd h this
  · simp [FixedHeader.partial_cmp, FixedHeader.new, Nat.compare_eq_gt.2 h]

/-- C80: headers of frames with the same first byte whose remaining lengths are in shortest form (as
MQTT 5 requires, and as everything that is written) are in the order of the sizes of the frames. -/
theorem C80_size (s t : Bytes) (x : UInt8) (j k : Nat) (m m' : Option Nat) (h h' : FixedHeader)
    (hj : j ≤ 268435455) (hk : k ≤ 268435455)
    (hs : check (x :: (varint j ++ s)) m = .ok h) (ht : check (x :: (varint k ++ t)) m' = .ok h') :
    h.partial_cmp h' = some (compare h.frame_length h'.frame_length) := by
  obtain ⟨b1, v, bd, rest, he, hv, -, rfl, -⟩ := (C45_check_ok _ _ _).1 hs
  obtain ⟨b1', v', bd', rest', he', hv', -, rfl, -⟩ := (C45_check_ok _ _ _).1 ht
  obtain ⟨rfl, hx⟩ := List.cons.inj he
  obtain ⟨rfl, hx'⟩ := List.cons.inj he'
  obtain ⟨rfl, hbd, -⟩ := varintRep_unique (varint_rep hj) hv hx
  obtain ⟨rfl, hbd', -⟩ := varintRep_unique (varint_rep hk) hv' hx'
  rw [← hbd, ← hbd']
  have h1 := header_cmp (FixedHeader.new x (varint j).length j)
    (FixedHeader.new x (varint k).length k)
  simp only [FixedHeader.new, FixedHeader.frame_length] at h1 ⊢
  rcases Nat.lt_trichotomy j k with h | h | h
  · have := varint_length_mono (Nat.le_of_lt h)
    rw [Nat.compare_eq_lt.2 (by omega)]
    exact h1.1.2 (.inr ⟨trivial, by omega⟩)
  · subst h
    rw [Nat.compare_eq_eq.2 rfl]
    exact h1.2.2.2 rfl
  · have := varint_length_mono (Nat.le_of_lt h)
    rw [Nat.compare_eq_gt.2 (by omega)]
    exact h1.2.1.2 (.inr ⟨trivial, by omega⟩)

/-- C80, the exception: the header of a frame of 3 bytes, with the remaining length 0 in two bytes, is
above that of a frame of 4 bytes. -/
theorem C80_exception :
    ∃ h h', check [0x30, 0x80, 0] none = .ok h ∧ check [0x30, 2, 0, 0] none = .ok h' ∧
      h.partial_cmp h' = some .gt ∧ h.frame_length = 3 ∧ h'.frame_length = 4 := by
  refine ⟨_, _, rfl, rfl, ?_⟩
  decide +kernel

/-- Two frames whose headers are compared. -/
example : ∃ h h', check [0x30, 1, 7] none = .ok h ∧ check [0x30, 2, 0, 0] none = .ok h' ∧
    h.partial_cmp h' = some .lt ∧ varint 1 = [1] ∧ varint 2 = [2] := by
  refine ⟨_, _, rfl, rfl, ?_⟩
  decide +kernel

end Props
