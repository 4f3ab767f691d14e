import Verif.Model.Usize
import Verif.Proofs.PropSets
/-
No overflow in the decoder on targets with at least 32 bits.
-/
namespace Mqtt

open Spec

@[simp] theorem Out.bind_ok' {α β : Type} (a : α) (f : α → Out β) : (Out.ok a >>= f) = f a := rfl
@[simp] theorem Out.bind_err' {α β : Type} (e : Err) (f : α → Out β) :
    ((Out.err e : Out α) >>= f) = .err e := rfl

theorem two_pow_le {w : Nat} (h : 32 ≤ w) : 4294967296 ≤ 2 ^ w :=
  show 2 ^ 32 ≤ 2 ^ w from Nat.pow_le_pow_right (by omega) h

theorem addW_ok {w a b : Nat} (hw : 32 ≤ w) (h : a + b < 4294967296) : addW w a b = .ok (a + b) :=
  if_pos (Nat.lt_of_lt_of_le h (two_pow_le hw))

theorem shlW_ok {w a s : Nat} (hw : 32 ≤ w) (hs : s < 32) (h : a <<< s < 4294967296) :
    shlW w a s = .ok (a <<< s) := by
  have := two_pow_le hw
  rw [shlW, if_pos (by omega), Nat.mod_eq_of_lt (by omega)]

theorem low7 (b : UInt8) : b.toNat &&& 0x7F ≤ 127 := Nat.and_le_right

theorem lengthLoopW_eq {w : Nat} (hw : 32 ≤ w) (bs : Bytes) : ∀ len ll sh,
    ll ≤ 3 → sh = 7 * ll → len < 2 ^ sh →
    lengthLoopW w bs len ll sh = lengthLoop bs len ll sh := by
  induction bs with
  | nil => intros; rfl
  | cons b bs ih =>
    intro len ll sh hll hsh hlen
    have h7 := low7 b
    have hsl : (b.toNat &&& 0x7F) <<< sh = (b.toNat &&& 0x7F) * 2 ^ sh := Nat.shiftLeft_eq _ _
    have hm : (b.toNat &&& 0x7F) * 2 ^ sh ≤ 127 * 2 ^ sh := Nat.mul_le_mul_right _ h7
    have hp : 2 ^ sh ≤ 2 ^ 21 := Nat.pow_le_pow_right (by omega) (by omega)
    have hp' : (2 : Nat) ^ 21 = 2097152 := rfl
    rw [lengthLoopW, lengthLoop]
    rw [addW_ok hw (by omega), Out.bind_ok']
    dsimp only
    rw [shlW_ok hw (s := sh) (by omega) (by omega), Out.bind_ok', addW_ok hw (by omega),
      Out.bind_ok']
    split
    · rfl
    · rw [addW_ok hw (by omega), Out.bind_ok']
      split
      · rfl
      · refine ih _ _ _ (by omega) (by omega) ?_
        rw [Nat.pow_add]
        omega

theorem lengthW_eq {w : Nat} (hw : 32 ≤ w) (b : Bytes) : lengthW w b = length b :=
  lengthLoopW_eq hw b 0 0 0 (by omega) rfl (by decide)

theorem length_bounds {b : Bytes} {k n : Nat} (h : length b = .ok (k, n)) :
    k ≤ 4 ∧ n ≤ 268435455 := by
  obtain ⟨v, r, -, hv, rfl⟩ := length_ok h
  exact ⟨hv.length_le, hv.le⟩

theorem parse_fixed_headerW_eq {w : Nat} (hw : 32 ≤ w) (b : Bytes) :
    parse_fixed_headerW w b = parse_fixed_header b := by
  unfold parse_fixed_headerW parse_fixed_header
  by_cases h : b.length < 2
  · simp only [if_pos h]
    rw [subW, if_pos (by omega)]; rfl
  · simp only [if_neg h]
    cases b with
    | nil => rfl
    | cons b1 b =>
      simp only [lengthW_eq hw]
      cases hl : length b with
      | ok x =>
        obtain ⟨k, n⟩ := x
        have := length_bounds hl
        simp only [Out.bind_ok']
        rw [addW_ok hw (by omega)]; rfl
      | err e => rfl
      | panic => rfl
      | diverge => rfl

theorem parse_fixed_header_bounds {b : Bytes} {fh : FixedHeader}
    (hp : parse_fixed_header b = .ok fh) :
    fh.fixed_header_len ≤ 5 ∧ fh.remaining_len ≤ 268435455 := by
  unfold parse_fixed_header at hp
  by_cases h : b.length < 2
  · simp [if_pos h] at hp
  · simp only [if_neg h] at hp
    cases b with
    | nil => simp at hp
    | cons b1 b =>
      cases hl : length b with
      | ok x =>
        obtain ⟨k, n⟩ := x
        have := length_bounds hl
        simp only [hl, Out.ok.injEq] at hp
        subst hp
        simp only [FixedHeader.new]; omega
      | _ => simp [hl] at hp

theorem checkW_eq {w : Nat} (hw : 32 ≤ w) (b : Bytes) (max : Option Nat) :
    checkW w b max = check b max := by
  unfold checkW check
  simp only [parse_fixed_headerW_eq hw]
  cases hp : parse_fixed_header b with
  | ok fh =>
    have hb := parse_fixed_header_bounds hp
    have key : (addW w fh.fixed_header_len fh.remaining_len >>= fun frame_length =>
        if b.length < frame_length then
          subW frame_length b.length >>= fun n => Out.err (.InsufficientBytes n)
        else .ok fh) = if b.length < fh.frame_length then
          .err (.InsufficientBytes (fh.frame_length - b.length)) else .ok fh := by
      rw [addW_ok hw (by omega), Out.bind_ok', FixedHeader.frame_length]
      split
      · rw [subW, if_pos (by omega)]; rfl
      · rfl
    simp only [Out.bind_ok', key]
    rfl
  | err e => rfl
  | panic => rfl
  | diverge => rfl

/-! ### Property loops -/

variable {σ : Type} {step : UInt8 → PropertyType → σ → Nat → M (σ × Nat)} {mode : StrMode}
  {ofList : List Property → σ} {ids : List UInt8}

theorem readVal_cost {ty : PropertyType} {b r : Bytes} {p : Property} {k : Nat}
    (h : readVal mode ty b = (.ok (p, k), r)) : k ≤ 131074 := by
  obtain ⟨-, -, v, -, ⟨hf, hr⟩, rfl⟩ := readVal_ok.1 h
  cases p
  case subscriptionIdentifier n =>
    obtain ⟨v', hv, hr⟩ := hr
    have := hv.length_le
    simp only [Property.id, List.cons.injEq, true_and] at hr
    subst hr
    simp [Property.drift]; omega
  all_goals
    simp only [Property.enc, Property.id, Property.value, List.cons.injEq, true_and] at hr
    subst hr
    simp only [Property.Fits] at hf
    simp [Property.drift, u16, u32, str]
    try omega

theorem propLoopW_eq {w : Nat} (hw : 32 ≤ w) (hs : StepSpec step mode ofList ids) {plen : Nat}
    (hp : plen ≤ 268435455) (fuel c : Nat) (l : List Property) :
    propLoopW w step plen fuel c (ofList l) = propLoop step plen fuel c (ofList l) := by
  induction fuel generalizing c l with
  | zero => rfl
  | succ fuel ih =>
    rw [propLoopW, propLoop]
    split
    case isFalse => rfl
    case isTrue hc =>
      congr 1; funext prop
      rw [addW_ok hw (by omega)]
      show (liftOut (property prop) >>= _) = _
      congr 1; funext ty
      rw [hs]
      split
      case isFalse => rfl
      case isTrue =>
        simp only [bind_assoc, pure_bind]
        funext b
        simp only [M.bind_apply]
        rcases hv : readVal mode ty b with ⟨o, b'⟩
        cases o with
        | ok x =>
          have hk := readVal_cost (p := x.1) (k := x.2) hv
          have hf : fitsW w (c + 1 + x.2) = .ok () :=
            if_pos (Nat.lt_of_lt_of_le (by omega) (two_pow_le hw))
          simp only [hf, liftOut]
          rw [ih]
        | _ => rfl

theorem readPropsW_eq {w : Nat} (hw : 32 ≤ w) (hs : StepSpec step mode ofList ids) {init : σ}
    (hi : init = ofList []) : readPropsW w step init = readProps step init := by
  subst hi
  have hm : lengthMW w = lengthM := by funext b; rw [lengthMW, lengthW_eq hw]; rfl
  funext b
  unfold readPropsW readProps
  rw [hm, M.bind_apply, M.bind_apply]
  rcases hl : lengthM b with ⟨o, b'⟩
  cases o with
  | ok x =>
    obtain ⟨k, n⟩ := x
    have := length_bounds (Prod.ext_iff.1 hl).1
    simp only [propLoopW_eq hw hs this.2]
  | _ => rfl

end Mqtt
