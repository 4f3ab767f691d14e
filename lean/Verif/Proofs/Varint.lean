import Verif.Proofs.Monad
import Verif.Spec.Wire
/-
The variable byte integer: `length`, `write_remaining_length`, `len_len` against `Spec.varint`
and `Spec.VarintRep`.
-/
set_option linter.unusedSimpArgs false

namespace Mqtt

open Spec (varint VarintRep digits)

theorem and7F (x : Nat) : x &&& 0x7F = x % 128 := Nat.and_two_pow_sub_one_eq_mod x 7

theorem and80 {x : Nat} (h : x < 256) : (x &&& 0x80 = 0) ↔ x < 128 := by
  have : ∀ y : Fin 256, (y.val &&& 0x80 = 0) ↔ y.val < 128 := by decide +kernel
  exact this ⟨x, h⟩

theorem u8_lt (b : UInt8) : b.toNat < 256 := b.toNat_lt

/-- One step of the decoding loop. -/
theorem lengthLoop_cons (b : UInt8) (bs : Bytes) (len ll sh : Nat) :
    lengthLoop (b :: bs) len ll sh =
      if b.toNat < 128 then .ok (ll + 1, len + (b.toNat % 128) * 2 ^ sh)
      else if sh + 7 > 21 then .err .MalformedRemainingLength
      else lengthLoop bs (len + (b.toNat % 128) * 2 ^ sh) (ll + 1) (sh + 7) := by
  rw [lengthLoop]
  simp only [and7F, Nat.shiftLeft_eq]
  by_cases h : b.toNat < 128
  · rw [if_pos ((and80 (u8_lt b)).2 h), if_pos h]
  · rw [if_neg (fun h' => h ((and80 (u8_lt b)).1 h')), if_neg h]

/-- The loop on a prefix of continuation bytes followed by a final byte. -/
theorem lengthLoop_rep (init : Bytes) (lst : UInt8) (r : Bytes) (len ll k : Nat)
    (hk : k + init.length ≤ 3) (hinit : ∀ b ∈ init, 128 ≤ b.toNat) (hl : lst.toNat < 128) :
    lengthLoop (init ++ lst :: r) len ll (7 * k) =
      .ok (ll + init.length + 1, len + digits (init ++ [lst]) * 2 ^ (7 * k)) := by
  induction init generalizing len ll k with
  | nil => simp [lengthLoop_cons, hl, digits]
  | cons b bs ih =>
    have hb : ¬ b.toNat < 128 := by have := hinit b (by simp); omega
    simp only [List.length_cons] at hk
    rw [List.cons_append, lengthLoop_cons, if_neg hb, if_neg (by omega),
      show 7 * k + 7 = 7 * (k + 1) by omega,
      ih _ _ (k + 1) (by omega) (fun x hx => hinit x (by simp [hx]))]
    simp only [List.length_cons, List.cons_append, digits, Out.ok.injEq, Prod.mk.injEq]
    refine ⟨by omega, ?_⟩
    have : 2 ^ (7 * (k + 1)) = 128 * 2 ^ (7 * k) := by
      rw [show 7 * (k + 1) = 7 + 7 * k by omega, Nat.pow_add]
    rw [this, Nat.add_assoc, Nat.add_mul]
    congr 2
    rw [Nat.mul_comm 128 (digits _), Nat.mul_assoc]

/-- The loop on too short a sequence of continuation bytes. -/
theorem lengthLoop_short (bs : Bytes) (len ll k : Nat) (hk : k + bs.length ≤ 3)
    (h : ∀ b ∈ bs, 128 ≤ b.toNat) :
    lengthLoop bs len ll (7 * k) = .err (.InsufficientBytes 1) := by
  induction bs generalizing len ll k with
  | nil => rfl
  | cons b bs ih =>
    have hb : ¬ b.toNat < 128 := by have := h b (by simp); omega
    simp only [List.length_cons] at hk
    rw [lengthLoop_cons, if_neg hb, if_neg (by omega), show 7 * k + 7 = 7 * (k + 1) by omega]
    exact ih _ _ _ (by omega) (fun x hx => h x (by simp [hx]))

/-- The loop on four continuation bytes. -/
theorem lengthLoop_long (init : Bytes) (r : Bytes) (len ll k : Nat)
    (hk : k + init.length = 4) (hk3 : k ≤ 3) (h : ∀ b ∈ init, 128 ≤ b.toNat) :
    lengthLoop (init ++ r) len ll (7 * k) = .err .MalformedRemainingLength := by
  induction init generalizing len ll k with
  | nil => simp at hk; omega
  | cons b bs ih =>
    have hb : ¬ b.toNat < 128 := by have := h b (by simp); omega
    simp only [List.length_cons] at hk
    rw [List.cons_append, lengthLoop_cons, if_neg hb]
    by_cases hk' : k = 3
    · rw [if_pos (by omega)]
    · rw [if_neg (by omega), show 7 * k + 7 = 7 * (k + 1) by omega]
      exact ih _ _ _ (by omega) (by omega) (fun x hx => h x (by simp [hx]))

/-- `length` on any representation of `n`. -/
theorem length_rep {w : Bytes} {n : Nat} (h : VarintRep w n) (r : Bytes) :
    length (w ++ r) = .ok (w.length, n) := by
  obtain ⟨init, lst, rfl, h3, hi, hl, rfl⟩ := h
  have := lengthLoop_rep init lst r 0 0 0 (by omega) hi hl
  simp only [Nat.mul_zero] at this
  simp only [length, List.append_assoc, List.singleton_append, List.length_append,
    List.length_singleton]
  rw [this]; simp

/-- A byte sequence begins with a representation, is too short, or starts with four
continuation bytes. -/
theorem varint_trichotomy (b : Bytes) :
    (∃ w n r, b = w ++ r ∧ VarintRep w n) ∨
    (b.length ≤ 3 ∧ ∀ x ∈ b, 128 ≤ x.toNat) ∨
    (∃ w r, b = w ++ r ∧ w.length = 4 ∧ ∀ x ∈ w, 128 ≤ x.toNat) := by
  suffices h : ∀ (k : Nat) (pre b : Bytes), pre.length + k = 4 → (∀ x ∈ pre, 128 ≤ x.toNat) →
      (∃ w n r, pre ++ b = w ++ r ∧ VarintRep w n) ∨
      ((pre ++ b).length ≤ 3 ∧ ∀ x ∈ pre ++ b, 128 ≤ x.toNat) ∨
      (∃ w r, pre ++ b = w ++ r ∧ w.length = 4 ∧ ∀ x ∈ w, 128 ≤ x.toNat) from
    h 4 [] b rfl (by simp)
  intro k
  induction k with
  | zero => intro pre b hk hp; exact .inr (.inr ⟨pre, b, rfl, by omega, hp⟩)
  | succ k ih =>
    intro pre b hk hp
    cases b with
    | nil => exact .inr (.inl ⟨by simp; omega, by simpa using hp⟩)
    | cons x b =>
      by_cases hx : x.toNat < 128
      · exact .inl ⟨pre ++ [x], _, b, by simp, pre, x, rfl, by omega, hp, hx, rfl⟩
      · have := ih (pre ++ [x]) b (by simp; omega) (by
          intro y hy
          rcases List.mem_append.1 hy with h | h
          · exact hp y h
          · rw [List.mem_singleton] at h; subst h; omega)
        simpa using this

theorem length_short {b : Bytes} (h : b.length ≤ 3) (h' : ∀ x ∈ b, 128 ≤ x.toNat) :
    length b = .err (.InsufficientBytes 1) := lengthLoop_short b 0 0 0 (by omega) h'

theorem length_long {w : Bytes} (r : Bytes) (h : w.length = 4) (h' : ∀ x ∈ w, 128 ≤ x.toNat) :
    length (w ++ r) = .err .MalformedRemainingLength :=
  lengthLoop_long w r 0 0 0 (by omega) (by omega) h'

/-- Inversion of a successful `length`. -/
theorem length_ok {b : Bytes} {k n : Nat} (h : length b = .ok (k, n)) :
    ∃ w r, b = w ++ r ∧ VarintRep w n ∧ k = w.length := by
  rcases varint_trichotomy b with ⟨w, m, r, rfl, hw⟩ | ⟨h1, h2⟩ | ⟨w, r, rfl, h1, h2⟩
  · rw [length_rep hw] at h
    simp only [Out.ok.injEq, Prod.mk.injEq] at h
    exact ⟨w, r, rfl, h.2 ▸ hw, h.1.symm⟩
  · rw [length_short h1 h2] at h; simp at h
  · rw [length_long r h1 h2] at h; simp at h

theorem digits_lt (w : Bytes) : digits w < 128 ^ w.length := by
  induction w with
  | nil => simp [digits]
  | cons b bs ih =>
    simp only [digits, List.length_cons, Nat.pow_succ]
    have : b.toNat % 128 < 128 := Nat.mod_lt _ (by omega)
    omega

theorem _root_.Spec.VarintRep.length_pos {w : Bytes} {n : Nat} (h : VarintRep w n) : 1 ≤ w.length := by
  obtain ⟨init, lst, rfl, _⟩ := h; simp

theorem _root_.Spec.VarintRep.length_le {w : Bytes} {n : Nat} (h : VarintRep w n) : w.length ≤ 4 := by
  obtain ⟨init, lst, rfl, h3, _⟩ := h; simp; omega

theorem _root_.Spec.VarintRep.le {w : Bytes} {n : Nat} (h : VarintRep w n) : n ≤ 268435455 := by
  have h4 := Spec.VarintRep.length_le h
  obtain ⟨init, lst, rfl, h3, hi, hl, rfl⟩ := h
  have := digits_lt (init ++ [lst])
  have h' : 128 ^ (init ++ [lst]).length ≤ 128 ^ 4 := Nat.pow_le_pow_right (by omega) h4
  omega

theorem ofNat_toNat {n : Nat} (h : n < 256) : (UInt8.ofNat n).toNat = n := by
  simp [UInt8.toNat_ofNat, Nat.mod_eq_of_lt h]

/-- The shortest form is a representation. -/
theorem varint_digits (n : Nat) : digits (varint n) = n := by
  induction n using Nat.strongRecOn with
  | ind n ih =>
    rw [varint]
    split
    · rw [digits, ofNat_toNat (by omega)]; simp [digits]; omega
    · rw [digits, ofNat_toNat (by omega), ih (n / 128) (by omega)]; omega

theorem varint_shape (n : Nat) : ∃ init lst, varint n = init ++ [lst] ∧
    (∀ b ∈ init, 128 ≤ b.toNat) ∧ lst.toNat < 128 := by
  induction n using Nat.strongRecOn with
  | ind n ih =>
    rw [varint]
    split
    · exact ⟨[], _, rfl, by simp, by rw [ofNat_toNat (by omega)]; omega⟩
    · obtain ⟨init, lst, h, hi, hl⟩ := ih (n / 128) (by omega)
      refine ⟨_ :: init, lst, by rw [h]; rfl, ?_, hl⟩
      intro b hb
      rcases List.mem_cons.1 hb with rfl | hb
      · rw [ofNat_toNat (by omega)]; omega
      · exact hi b hb

theorem varint_length_le {n k : Nat} (h : n < 128 ^ (k + 1)) : (varint n).length ≤ k + 1 := by
  induction k generalizing n with
  | zero => rw [varint, if_pos (by simpa using h)]; simp
  | succ k ih =>
    rw [varint]
    split
    · simp
    · have := ih (n := n / 128) (by
        rw [Nat.pow_succ] at h
        exact Nat.div_lt_of_lt_mul (by omega))
      simpa using this

theorem varint_length_ge {n k : Nat} (h : 128 ^ k ≤ n) : k + 1 ≤ (varint n).length := by
  induction k generalizing n with
  | zero => rw [varint]; split <;> simp
  | succ k ih =>
    rw [Nat.pow_succ] at h
    have : 1 ≤ 128 ^ k := Nat.one_le_pow _ _ (by omega)
    rw [varint, if_neg (by omega)]
    have := ih (n := n / 128) ((Nat.le_div_iff_mul_le (by omega)).2 (by omega))
    simpa using this

theorem varint_length_pos (n : Nat) : 1 ≤ (varint n).length := by
  rw [varint]; split <;> simp

theorem varint_rep {n : Nat} (h : n ≤ 268435455) : VarintRep (varint n) n := by
  obtain ⟨init, lst, hv, hi, hl⟩ := varint_shape n
  have := varint_length_le (n := n) (k := 3) (by omega)
  rw [hv] at this
  exact ⟨init, lst, hv, by simpa using this, hi, hl, (varint_digits n).symm⟩

/-- Shortest: no representation of `n` is shorter than `varint n`. -/
theorem varint_minimal {w : Bytes} {n : Nat} (h : VarintRep w n) :
    (varint n).length ≤ w.length := by

  obtain ⟨init, lst, rfl, h3, hi, hl, rfl⟩ := h
  have := digits_lt (init ++ [lst])
  obtain ⟨k, hk⟩ : ∃ k, (init ++ [lst]).length = k + 1 := ⟨init.length, by simp⟩
  rw [hk] at this ⊢
  exact varint_length_le this

/-- `len_len` is the length of the shortest form. -/
theorem len_len_eq {n : Nat} (h : n ≤ 268435455) : len_len n = (varint n).length := by
  unfold len_len
  split
  · have := varint_length_le (n := n) (k := 3) (by omega)
    have := varint_length_ge (n := n) (k := 3) (by omega)
    omega
  · split
    · have := varint_length_le (n := n) (k := 2) (by omega)
      have := varint_length_ge (n := n) (k := 2) (by omega)
      omega
    · split
      · have := varint_length_le (n := n) (k := 1) (by omega)
        have := varint_length_ge (n := n) (k := 1) (by omega)
        omega
      · have := varint_length_le (n := n) (k := 0) (by omega)
        have := varint_length_pos n
        omega

theorem or128 {x : Nat} (h : x < 128) : UInt8.ofNat x ||| 128 = UInt8.ofNat (128 + x) := by
  have : ∀ y : Fin 128, UInt8.ofNat y.val ||| 128 = UInt8.ofNat (128 + y.val) := by decide +kernel
  exact this ⟨x, h⟩

theorem writeRemLoop_emits (fuel x count : Nat) (h : x < 128 ^ fuel) :
    Emits (writeRemLoop fuel x count) (.ok (count + (varint x).length)) (varint x) ∨
      fuel = 0 := by
  induction fuel generalizing x count with
  | zero => simp
  | succ fuel ih =>
    left
    rw [writeRemLoop, varint]
    by_cases hx : x < 128
    · have h0 : x / 128 = 0 := by omega
      simp only [h0, Nat.lt_irrefl, gt_iff_lt, if_false, if_true, if_pos hx, ↓reduceIte]
      intro b
      rw [Nat.mod_eq_of_lt hx]
      rfl
    · have h0 : ¬ x / 128 = 0 := by omega
      have h1 : x / 128 > 0 := by omega
      simp only [h0, h1, if_neg hx, if_false, if_true]
      rcases ih (x / 128) (count + 1) (by
        rw [Nat.pow_succ] at h; exact Nat.div_lt_of_lt_mul (by omega)) with h2 | h2
      · rw [or128 (Nat.mod_lt _ (by omega))]
        have := Emits.bind (f := fun _ => writeRemLoop fuel (x / 128) (count + 1))
          (Emits.putBytes [UInt8.ofNat (128 + x % 128)]) h2
        simp only [List.length_cons]
        rw [show count + ((varint (x / 128)).length + 1) = count + 1 + (varint (x / 128)).length
          by omega]
        exact this
      · subst h2; simp at h; omega

/-- `write_remaining_length` within the limit. -/
theorem write_remaining_length_emits {n : Nat} (h : n ≤ 268435455) :
    Emits (write_remaining_length n) (.ok (varint n).length) (varint n) := by
  unfold write_remaining_length
  rw [if_neg (by omega)]
  rcases writeRemLoop_emits 10 n 0 (by omega) with h | h
  · simpa using h
  · omega

theorem write_remaining_length_err {n : Nat} (h : 268435455 < n) :
    Emits (write_remaining_length n) (.err .PayloadTooLong) [] := by
  unfold write_remaining_length
  rw [if_pos (by omega)]
  exact Emits.throwE _

/-- The reader side: `length` and `advance`. -/
theorem lengthM_bind_rep {α : Type} {w : Bytes} {n : Nat} (h : VarintRep w n) (r : Bytes)
    (f : Nat × Nat → M α) : (lengthM >>= f) (w ++ r) = f (w.length, n) (w ++ r) := by
  rw [M.bind_apply, lengthM, length_rep h]

theorem advance_append (w r : Bytes) : advance w.length (w ++ r) = (.ok (), r) := by
  simp [advance]

theorem Good.lengthM : Good Mqtt.lengthM := by
  intro b
  refine ⟨?_, ?_, List.suffix_refl b⟩ <;>
  · rcases varint_trichotomy b with ⟨w, m, r, rfl, hw⟩ | ⟨h1, h2⟩ | ⟨w, r, rfl, h1, h2⟩
    · simp [Mqtt.lengthM, length_rep hw]
    · simp [Mqtt.lengthM, length_short h1 h2]
    · simp [Mqtt.lengthM, length_long r h1 h2]

end Mqtt
