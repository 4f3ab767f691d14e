import Verif.Proofs.Varint
import Verif.Spec.Utf8
/-
`utf8Valid` (the model of `core::str::from_utf8`) accepts exactly the UTF-8 encodings.
-/
set_option linter.unusedSimpArgs false

namespace Mqtt

open Spec (utf8Char IsUtf8)

theorem isCont_iff (b : UInt8) : isCont b = true ↔ 0x80 ≤ b.toNat ∧ b.toNat ≤ 0xBF := by
  simp [isCont, UInt8.le_iff_toNat_le]

theorem beq_ofNat (x : UInt8) {n : Nat} (hn : n < 256) :
    (x == UInt8.ofNat n) = true ↔ x.toNat = n := by
  rw [beq_iff_eq]
  constructor
  · rintro rfl; exact ofNat_toNat hn
  · intro h; apply UInt8.toNat_inj.1; rw [ofNat_toNat hn, h]

theorem beqE0 (x : UInt8) : (x == 0xE0) = true ↔ x.toNat = 0xE0 := beq_ofNat (n := 0xE0) x (by omega)
theorem beqED (x : UInt8) : (x == 0xED) = true ↔ x.toNat = 0xED := beq_ofNat (n := 0xED) x (by omega)
theorem beqF0 (x : UInt8) : (x == 0xF0) = true ↔ x.toNat = 0xF0 := beq_ofNat (n := 0xF0) x (by omega)
theorem beqF4 (x : UInt8) : (x == 0xF4) = true ↔ x.toNat = 0xF4 := beq_ofNat (n := 0xF4) x (by omega)

/-- Prepending one encoded character keeps validity. -/
theorem utf8Valid_char (c : Char) (r : Bytes) (h : utf8Valid r = true) :
    utf8Valid (utf8Char c ++ r) = true := by
  have hc : c.toNat < 0xD800 ∨ (0xDFFF < c.toNat ∧ c.toNat < 0x110000) := c.valid
  unfold utf8Char
  generalize c.toNat = v at hc
  simp only
  split
  · rw [List.singleton_append, utf8Valid.eq_def]
    simp only [UInt8.lt_iff_toNat_lt, UInt8.reduceToNat, ofNat_toNat (show v < 256 by omega)]
    rw [if_pos (by assumption)]; exact h
  split
  · simp only [List.cons_append, List.nil_append]
    rw [utf8Valid.eq_def]
    simp only [UInt8.lt_iff_toNat_lt, UInt8.le_iff_toNat_le, UInt8.reduceToNat,
      ofNat_toNat (show 0xC0 + v / 64 < 256 by omega), Bool.and_eq_true, decide_eq_true_eq]
    rw [if_neg (by omega), if_pos (by omega)]
    simp only [isCont_iff, h, and_true, ofNat_toNat (show 0x80 + v % 64 < 256 by omega),
      Bool.and_eq_true]
    omega
  split
  · simp only [List.cons_append, List.nil_append]
    rw [utf8Valid.eq_def]
    simp only [UInt8.lt_iff_toNat_lt, UInt8.le_iff_toNat_le, UInt8.reduceToNat,
      ofNat_toNat (show 0xE0 + v / 4096 < 256 by omega), Bool.and_eq_true, decide_eq_true_eq]
    rw [if_neg (by omega), if_neg (by omega), if_pos (by omega)]
    simp only [isCont_iff, h, and_true, ofNat_toNat (show 0x80 + v % 64 < 256 by omega),
      ofNat_toNat (show 0x80 + v / 64 % 64 < 256 by omega), Bool.or_eq_true, Bool.and_eq_true,
      beqE0, beqED, ofNat_toNat (show 0xE0 + v / 4096 < 256 by omega), decide_eq_true_eq]
    omega
  · simp only [List.cons_append, List.nil_append]
    rw [utf8Valid.eq_def]
    simp only [UInt8.lt_iff_toNat_lt, UInt8.le_iff_toNat_le, UInt8.reduceToNat,
      ofNat_toNat (show 0xF0 + v / 262144 < 256 by omega), Bool.and_eq_true, decide_eq_true_eq]
    rw [if_neg (by omega), if_neg (by omega), if_neg (by omega), if_pos (by omega)]
    simp only [isCont_iff, h, and_true, ofNat_toNat (show 0x80 + v % 64 < 256 by omega),
      ofNat_toNat (show 0x80 + v / 64 % 64 < 256 by omega),
      ofNat_toNat (show 0x80 + v / 4096 % 64 < 256 by omega), Bool.or_eq_true, Bool.and_eq_true,
      beqF0, beqF4, ofNat_toNat (show 0xF0 + v / 262144 < 256 by omega), decide_eq_true_eq]
    omega

theorem char_of (v : Nat) (h : v < 0xD800 ∨ (0xDFFF < v ∧ v < 0x110000)) :
    ∃ c : Char, c.toNat = v := by
  have hv : v.isValidChar := h
  have h32 : (UInt32.ofNat v).toNat = v := UInt32.toNat_ofNat_of_lt' (by
    show v < 2 ^ 32; omega)
  exact ⟨⟨UInt32.ofNat v, by rw [UInt32.isValidChar, h32]; exact hv⟩, h32⟩

theorem ofNat_eq {n : Nat} (b : UInt8) (h : n = b.toNat) : UInt8.ofNat n = b := by
  subst h; exact UInt8.ofNat_toNat

/-- A valid sequence is an encoding. -/
theorem utf8Valid_sound (bs : Bytes) (h : utf8Valid bs = true) : IsUtf8 bs := by
  have key : ∀ (v : Nat) (pre r : Bytes), (v < 0xD800 ∨ (0xDFFF < v ∧ v < 0x110000)) →
      (∀ c : Char, c.toNat = v → utf8Char c = pre) → IsUtf8 r → IsUtf8 (pre ++ r) := by
    rintro v pre r hv hpre ⟨cs, rfl⟩
    obtain ⟨c, hc⟩ := char_of v hv
    exact ⟨c :: cs, by simp [hpre c hc]⟩
  fun_induction utf8Valid bs with
  | case1 => exact ⟨[], rfl⟩
  | case2 b0 rest h1 ih =>
    rw [UInt8.lt_iff_toNat_lt] at h1
    simp only [UInt8.reduceToNat] at h1
    refine key b0.toNat [b0] rest (by omega) ?_ (ih h)
    intro c hc
    simp only [utf8Char, hc, if_pos h1]
    rw [ofNat_eq b0 rfl]
  | case3 b0 h1 h2 b1 rest ih =>
    simp only [Bool.and_eq_true, UInt8.lt_iff_toNat_lt, UInt8.le_iff_toNat_le, decide_eq_true_eq,
      UInt8.reduceToNat, isCont_iff] at h h1 h2
    refine key ((b0.toNat - 0xC0) * 64 + (b1.toNat - 0x80)) [b0, b1] rest (by omega) ?_ (ih h.2)
    intro c hc
    simp only [utf8Char, hc]
    rw [if_neg (by omega), if_pos (by omega), ofNat_eq b0 (by omega), ofNat_eq b1 (by omega)]
  | case4 => simp at h
  | case5 b0 h1 h2 h3 b1 b2 rest ih =>
    simp only [Bool.and_eq_true, Bool.or_eq_true, UInt8.lt_iff_toNat_lt, UInt8.le_iff_toNat_le,
      decide_eq_true_eq, UInt8.reduceToNat, isCont_iff, beqE0, beqED] at h h1 h2 h3
    have hv := h.2
    have ha := h.1
    clear h
    refine key ((b0.toNat - 0xE0) * 4096 + (b1.toNat - 0x80) * 64 + (b2.toNat - 0x80))
      [b0, b1, b2] rest (by omega) ?_ (ih hv)
    intro c hc
    simp only [utf8Char, hc]
    rw [if_neg (by omega), if_neg (by omega), if_pos (by omega), ofNat_eq b0 (by omega),
      ofNat_eq b1 (by omega), ofNat_eq b2 (by omega)]
  | case6 => simp at h
  | case7 b0 h1 h2 h3 h4 b1 b2 b3 rest ih =>
    simp only [Bool.and_eq_true, Bool.or_eq_true, UInt8.lt_iff_toNat_lt, UInt8.le_iff_toNat_le,
      decide_eq_true_eq, UInt8.reduceToNat, isCont_iff, beqF0, beqF4] at h h1 h2 h3 h4
    have hv := h.2
    have ha := h.1
    clear h
    refine key ((b0.toNat - 0xF0) * 262144 + (b1.toNat - 0x80) * 4096 + (b2.toNat - 0x80) * 64
      + (b3.toNat - 0x80)) [b0, b1, b2, b3] rest (by omega) ?_ (ih hv)
    intro c hc
    simp only [utf8Char, hc]
    rw [if_neg (by omega), if_neg (by omega), if_neg (by omega), ofNat_eq b0 (by omega),
      ofNat_eq b1 (by omega), ofNat_eq b2 (by omega), ofNat_eq b3 (by omega)]
  | case8 => simp at h
  | case9 => simp at h

/-- The validator accepts exactly the UTF-8 encodings of texts. -/
theorem utf8Valid_iff (bs : Bytes) : utf8Valid bs = true ↔ IsUtf8 bs := by
  constructor
  · exact utf8Valid_sound bs
  · rintro ⟨cs, rfl⟩
    induction cs with
    | nil => rfl
    | cons c cs ih => rw [List.flatMap_cons]; exact utf8Valid_char c _ ih

end Mqtt
