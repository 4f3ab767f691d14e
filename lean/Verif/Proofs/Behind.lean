import Verif.Proofs.Inject
/-
A CONNECT behind other bytes: what the misplaced flags do to the frame.
-/
namespace Mqtt

open Spec

theorem digits_inj : ∀ {v w : Bytes}, v.length = w.length →
    (∀ i : Nat, v[i]?.map (fun x : UInt8 => x.toNat / 128) = w[i]?.map (fun x : UInt8 => x.toNat / 128)) →
    digits v = digits w → v = w
  | [], [], _, _, _ => rfl
  | a :: v, b :: w, hl, hi, hd => by
    have h0 := hi 0
    simp only [List.length_cons, Nat.add_right_cancel_iff] at hl
    simp only [List.getElem?_cons_zero, Option.map_some, Option.some.injEq] at h0
    simp only [digits] at hd
    have hab : a = b := UInt8.toNat.inj (by omega)
    have hvw := digits_inj hl (fun i => by simpa using hi (i + 1)) (by omega)
    rw [hab, hvw]

theorem rep_same_length {v w : Bytes} {n : Nat} (hv : VarintRep v n) (hw : VarintRep w n)
    (hl : v.length = w.length) : v = w := by
  obtain ⟨i, a, rfl, -, hi, ha, hd⟩ := hv
  obtain ⟨j, b, rfl, -, hj, hb, hd'⟩ := hw
  simp only [List.length_append, List.length_singleton, Nat.add_right_cancel_iff] at hl
  refine digits_inj (by simp [hl]) (fun k => ?_) (hd.symm.trans hd')
  by_cases h1 : k < i.length
  · rw [List.getElem?_append_left h1, List.getElem?_append_left (by omega),
      List.getElem?_eq_getElem h1, List.getElem?_eq_getElem (by omega)]
    have h2 := hi _ (List.getElem_mem h1)
    have h3 := hj _ (List.getElem_mem (show k < j.length by omega))
    have h4 := i[k].toNat_lt
    have h5 := (j[k]'(by omega)).toNat_lt
    simp only [Option.map_some, Option.some.injEq]
    omega
  · rw [List.getElem?_append_right (by omega), List.getElem?_append_right (by omega), hl]
    cases hk : k - j.length with
    | zero =>
      simp only [List.getElem?_cons_zero, Option.map_some, Option.some.injEq]
      omega
    | succ m => simp

/-- The protocol name, the protocol level and the flags. -/
def preamble (f : UInt8) : Bytes := [0, 4, 0x4D, 0x51, 0x54, 0x54, 5, f]

theorem preamble_shift {v w x y : Bytes} {f g : UInt8}
    (h : v ++ (preamble f ++ x) = w ++ (preamble g ++ y)) (hw : w.length ≤ v.length + 3) :
    w.length ≤ v.length := by
  apply Classical.byContradiction
  intro hlt
  have h2 : (preamble f ++ x)[w.length - v.length]? = (preamble g ++ y)[0]? := by
    rw [← List.getElem?_append_right (l₁ := v) (by omega), h,
      List.getElem?_append_right (Nat.le_refl _), Nat.sub_self]
  obtain ⟨d, hd, hd3⟩ : ∃ d, w.length - v.length = d + 1 ∧ d < 3 :=
    ⟨w.length - v.length - 1, by omega, by omega⟩
  rw [hd] at h2
  rcases d with _ | _ | _ | d
  · simp [preamble] at h2
  · simp [preamble] at h2
  · simp [preamble] at h2
  · omega

theorem preamble_align {v w x y : Bytes} {f g : UInt8}
    (h : v ++ (preamble f ++ x) = w ++ (preamble g ++ y)) (hv : v.length ≤ 4) (hw : w.length ≤ 4)
    (hv1 : 1 ≤ v.length) (hw1 : 1 ≤ w.length) : v.length = w.length :=
  Nat.le_antisymm (preamble_shift h.symm (by omega)) (preamble_shift h (by omega))

/-- A CONNECT of which one byte before the flags may have been overwritten: if it is still accepted
as a CONNECT, then with the same flags. -/
theorem behind_flags {v0 rest e v rest' : Bytes} {F F0 f b1 : UInt8} {n0 n : Nat}
    (hv0 : VarintRep v0 n0)
    (he : e = 0x10 :: (v0 ++ (preamble F0 ++ rest)) ∨
      ∃ j, j ≤ v0.length + 7 ∧ e = (0x10 :: (v0 ++ (preamble F0 ++ rest))).set j F)
    (h : e = b1 :: (v ++ (preamble f ++ rest'))) (hv : VarintRep v n) : f = F0 := by
  have fin : ∀ {x y : Bytes}, preamble f ++ x = preamble F0 ++ y → f = F0 := by
    intro x y h2
    simp only [preamble, List.cons_append, List.cons.injEq, List.nil_append, true_and] at h2
    exact h2.1
  rcases he with he | ⟨j, hj, he⟩
  · rw [h] at he
    obtain ⟨-, -, h2⟩ := varintRep_unique hv hv0 (List.cons.inj he).2
    exact fin h2
  have hl0 := hv0.length_pos
  have hl := hv.length_pos
  rw [h] at he
  rcases Nat.eq_zero_or_pos j with rfl | hj0
  · rw [List.set_cons_zero] at he
    obtain ⟨-, -, h2⟩ := varintRep_unique hv hv0 (List.cons.inj he).2
    exact fin h2
  obtain ⟨j, rfl⟩ : ∃ k, j = k + 1 := ⟨j - 1, by omega⟩
  rw [List.set_cons_succ] at he
  obtain ⟨-, h1⟩ := List.cons.inj he
  by_cases hjv : j < v0.length
  · rw [List.set_append_left _ _ hjv] at h1
    exact fin (List.append_inj h1 (preamble_align h1 hv.length_le (by simpa using hv0.length_le)
      hl (by simpa using hl0))).2
  · rw [List.set_append_right _ _ (by omega)] at h1
    obtain ⟨-, -, h2⟩ := varintRep_unique hv hv0 h1
    obtain ⟨k, hk, hk7⟩ : ∃ k, j - v0.length = k ∧ k < 7 := ⟨_, rfl, by omega⟩
    rw [hk] at h2
    rcases k with _ | _ | _ | _ | _ | _ | _ | k
    all_goals first
      | omega
      | (simp only [preamble, List.cons_append, List.set_cons_succ, List.set_cons_zero,
          List.cons.injEq, true_and] at h2
         simp [h2])

/-- The same for a whole frame with small flags: if it is still accepted, it was not changed. -/
theorem behind_same {v0 rest e v rest' : Bytes} {F0 b1 : UInt8} {n0 : Nat}
    (hv0 : VarintRep v0 n0) (hn0 : n0 = 8 + rest.length)
    (he : e = 0x10 :: (v0 ++ (preamble F0 ++ rest)) ∨
      ∃ j, j ≤ v0.length + 7 ∧ e = (0x10 :: (v0 ++ (preamble F0 ++ rest))).set j F0)
    (h : e = b1 :: (v ++ (preamble F0 ++ rest'))) (hv : VarintRep v (8 + rest'.length))
    (ht : b1.toNat / 16 = 1) (h16 : F0.toNat < 16) :
    e = 0x10 :: (v0 ++ (preamble F0 ++ rest)) := by
  rcases he with he | ⟨j, hj, he⟩
  · exact he
  rcases Nat.eq_zero_or_pos j with rfl | hj0
  · rw [List.set_cons_zero, h] at he
    obtain ⟨rfl, -⟩ := List.cons.inj he
    omega
  obtain ⟨j, rfl⟩ : ∃ k, j = k + 1 := ⟨j - 1, by omega⟩
  rw [List.set_cons_succ] at he
  have he' := he
  rw [h] at he'
  obtain ⟨-, h1⟩ := List.cons.inj he'
  by_cases hjv : j < v0.length
  · rw [List.set_append_left _ _ hjv] at he h1
    have h2 := List.append_inj h1 (preamble_align h1 hv.length_le (by simpa using hv0.length_le)
      hv.length_pos (by simpa using hv0.length_pos))
    have h3 := List.append_cancel_left h2.2
    subst h3
    rw [← hn0] at hv
    have h5 := rep_same_length hv hv0 (by rw [h2.1, List.length_set])
    rw [he, ← h2.1, h5]
  · rw [List.set_append_right _ _ (by omega)] at he h1
    obtain ⟨-, -, h2⟩ := varintRep_unique hv hv0 h1
    obtain ⟨k, hk, hk7⟩ : ∃ k, j - v0.length = k ∧ k < 7 := ⟨_, rfl, by omega⟩
    rw [hk] at h2 he
    rw [he]
    rcases k with _ | _ | _ | _ | _ | _ | _ | k
    all_goals first
      | omega
      | (simp only [preamble, List.cons_append, List.set_cons_succ, List.set_cons_zero,
          List.cons.injEq, true_and] at h2
         simp [preamble, ← h2.1])

end Mqtt
