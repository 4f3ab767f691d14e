import Verif.Proofs.Cost
import Verif.Proofs.CostBound
import Verif.Proofs.CostLower
import Verif.Props.Typed
/-
C55: decoding takes a number of loop iterations linear in the bytes it consumes.
-/
namespace Props

open Mqtt Spec

/-- C55: counting does not change the decoder: on every input the counted decoder gives the outcome
and leaves the buffer of `Packet::read`. -/
theorem C55_same (mode : StrMode) (max : Option Nat) (b : Bytes) :
    (Packet.readC mode max b).1 = Packet.read mode max b :=
  congrFun (Packet.erase_readC mode max) b

/-- C55: a call executes at most four loop iterations more than the number of bytes it consumes;
and fewer iterations than it consumes bytes if it returns a packet. -/
theorem C55_linear (mode : StrMode) (max : Option Nat) (b : Bytes) :
    work mode max b + (Packet.read mode max b).2.length ≤ b.length + 4 ∧
      ∀ p, (Packet.read mode max b).1 = .ok p →
        work mode max b + (Packet.read mode max b).2.length < b.length := by
  rw [← C55_same]
  exact readC_count mode max b

/-- C55: a call that consumes nothing - in particular one that asks for more bytes of a frame that
has not arrived completely, however much of it is in the buffer - executes at most four
iterations. -/
theorem C55_waiting {mode : StrMode} {max : Option Nat} {b : Bytes}
    (h : (Packet.read mode max b).2 = b) : work mode max b ≤ 4 := by
  have := (C55_linear mode max b).1
  rw [h] at this
  omega

theorem lengthLoopC_cont {v : Bytes} (hv : ∀ x ∈ v, 128 ≤ x.toNat) (r : Bytes) :
    ∀ {len ll k : Nat}, v.length + k ≤ 4 → (r = [] ∧ v.length + k ≤ 3 ∨ v.length + k = 4) → k ≤ 3 →
      (lengthLoopC (v ++ r) len ll (7 * k)).2 = v.length := by
  induction v with
  | nil =>
    rintro len ll k h1 (⟨rfl, -⟩ | h2) h3
    · rfl
    · simp at h2; omega
  | cons x v ih =>
    intro len ll k h1 h2 h3
    have hx := hv x (by simp)
    have h80 : ¬ (x.toNat &&& 0x80) = 0 := fun h => by
      have := (and80 x.toNat_lt).1 h
      omega
    simp only [List.length_cons] at h1 h2 ⊢
    rw [List.cons_append]
    simp only [lengthLoopC, if_neg h80]
    by_cases hk : k = 3
    · subst hk
      have hl : v.length = 0 := by omega
      rw [if_pos (by omega)]
      dsimp only
      omega
    · rw [if_neg (by omega), show 7 * k + 7 = 7 * (k + 1) by omega]
      dsimp only
      rw [ih (fun y hy => hv y (by simp [hy])) (k := k + 1) (by omega)
        (h2.imp (fun h => ⟨h.1, by omega⟩) fun h => by omega) (by omega)]

theorem work_waiting {mode : StrMode} {max : Option Nat} {b : Bytes}
    (h : (Packet.read mode max b).2 = b) : work mode max b = (parse_fixed_headerC b).2 := by
  have he : ∃ e, (checkC b max).1 = .err e := by
    rcases C45_check_then_read mode b max with ⟨e, h1, -⟩ | ⟨fh, h1, h2, h3, -⟩
    · exact ⟨e, by rw [checkC_fst, h1]⟩
    · obtain ⟨b1, v, bd, r, rfl, -, -, -, hl⟩ := (C45_check_ok _ _ _).1 h1
      rw [h] at h3
      have := congrArg List.length h3
      rw [hl, List.length_drop] at this
      simp at this
      omega
  obtain ⟨e, he⟩ := he
  have hw : work mode max b = (checkC b max).2 := by
    unfold work Packet.readC
    rw [MC.bind_apply, show MC.lift getBuf b = ((.ok b, b), 0) from rfl]
    dsimp only
    rw [MC.bind_apply,
      show checkMC b max b = (((checkC b max).1, b), (checkC b max).2) from rfl, he]
    simp
  rw [hw]
  unfold checkC
  dsimp only
  rcases hq : parse_fixed_headerC b with ⟨o, n⟩
  cases o with
  | ok fh =>
    dsimp only
    cases max with
    | none => dsimp only; split <;> rfl
    | some m =>
      dsimp only
      by_cases hm : fh.remaining_len > m
      · simp only [if_pos hm]
      · simp only [if_neg hm]
        split <;> rfl
  | _ => rfl

/-- C55, exactly: a call that consumes nothing executes one iteration for each byte of the length field
that it looks at, up to the end of the field, the end of the buffer or the fourth byte; none if there
are fewer than two bytes. -/
theorem C55_waiting_exact {mode : StrMode} {max : Option Nat} {b : Bytes}
    (h : (Packet.read mode max b).2 = b) :
    (b.length < 2 → work mode max b = 0) ∧
    (∀ b1 w, b = b1 :: w → w.length ≤ 3 → (∀ x ∈ w, 128 ≤ x.toNat) →
      work mode max b = w.length) ∧
    (∀ b1 w r, b = b1 :: (w ++ r) → w.length = 4 → (∀ x ∈ w, 128 ≤ x.toNat) →
      work mode max b = 4) ∧
    (∀ b1 v n r, b = b1 :: (v ++ r) → VarintRep v n → work mode max b = v.length) := by
  rw [work_waiting h]
  have short : b.length < 2 → (parse_fixed_headerC b).2 = 0 := fun hb => by
    unfold parse_fixed_headerC
    simp only [if_pos hb]
  have long : ∀ b1 w, b = b1 :: w → w ≠ [] → (parse_fixed_headerC b).2 = (lengthC w).2 := by
    rintro b1 w rfl hw
    have : ¬ (b1 :: w).length < 2 := by
      cases w with
      | nil => exact absurd rfl hw
      | cons _ _ => simp
    unfold parse_fixed_headerC
    simp only [if_neg this]
    rcases lengthC w with ⟨o, n⟩
    cases o <;> rfl
  refine ⟨short, fun b1 w hb hl hw => ?_, fun b1 w r hb hl hw => ?_, fun b1 v n r hb hv => ?_⟩
  · by_cases hn : w = []
    · subst hn
      exact short (by simp [hb])
    · rw [long b1 w hb hn]
      have := lengthLoopC_cont hw [] (len := 0) (ll := 0) (k := 0) (by omega) (.inl ⟨rfl, by omega⟩)
        (by omega)
      rwa [List.append_nil] at this
  · have hn : w ++ r ≠ [] := fun e => by simp [(List.append_eq_nil_iff.1 e).1] at hl
    rw [long b1 _ hb hn]
    have := lengthLoopC_cont hw r (len := 0) (ll := 0) (k := 0) (by omega) (.inr (by omega))
      (by omega)
    rw [hl] at this
    exact this
  · have hp : 0 < v.length := by
      obtain ⟨i, l, rfl, -⟩ := hv
      simp
    have hn : v ++ r ≠ [] := fun e => by simp [(List.append_eq_nil_iff.1 e).1] at hp
    rw [long b1 _ hb hn]
    exact lengthC_ok (v := n) (by rw [lengthC_fst, length_rep hv r])

/-- C55: in a session, however the bytes arrive and whenever `Packet::read` is called, the iterations
executed together with the bytes still in the buffer are at most the bytes that have arrived and
four for each call that returned no packet. -/
theorem C55_session {mode : StrMode} {max : Option Nat} {b : Bytes} {fed failed total : Nat}
    (h : Session mode max b fed failed total) : total + b.length ≤ fed + 4 * failed := by
  induction h with
  | start => exact Nat.le_refl _
  | feed c _ ih => rw [List.length_append]; omega
  | @read b fed failed total _ ih =>
    obtain ⟨h1, h2⟩ := C55_linear mode max b
    cases ho : (Packet.read mode max b).1 with
    | ok p => have := h2 p ho; simp only [returned, if_true]; omega
    | _ => simp only [returned, Bool.false_eq_true, if_false]; omega

/-- C55: the count misses no entry: for each entry of a list of the packet returned there was an
iteration, and at least one for the remaining length. -/
theorem C55_counts {mode : StrMode} {max : Option Nat} {b b' : Bytes} {p : Packet}
    (h : Packet.read mode max b = (.ok p, b')) : listEntries p < work mode max b := by
  rw [← C55_same] at h
  exact readC_cnt (n := work mode max b) (Prod.ext h rfl)

/-- C55: a packet has fewer list entries than its frame has bytes, so that a sender cannot make the
receiver build a longer list than the bytes it sends. -/
theorem C55_entries {mode : StrMode} {max : Option Nat} {b b' : Bytes} {p : Packet}
    (h : Packet.read mode max b = (.ok p, b')) : listEntries p + b'.length + 1 < b.length := by
  have h1 := C55_counts h
  have h2 := (C55_linear mode max b).2 p (by rw [h])
  rw [h] at h2
  dsimp only at h2
  omega

/-! The hypotheses are met, and the bounds are attained. -/

/-- Two iterations for the lengths and one for each reason code. -/
example : work .utf8 none [0x90, 5, 0, 1, 0, 0, 1] = 4 := by decide +kernel

example :
    listEntries (.SubAck { pkid := 1, return_codes := [.Success .AtMostOnce, .Success .AtLeastOnce], properties := none }) = 2 := rfl

/-- A property section with two user properties and one identifier of two bytes: one iteration for
each of the remaining length and the section's length, one per property and two for the
identifier. -/
example : work .utf8 none
    [0x30, 17, 0, 1, 97, 13, 0x26, 0, 0, 0, 0, 0x26, 0, 0, 0, 0, 0x0b, 0x81, 1] = 7 := by
  decide +kernel

/-- Four iterations and nothing consumed. -/
example : work .utf8 none [0x30, 0x80, 0x80, 0x80, 0x80] = 4 ∧
    (Packet.read .utf8 none [0x30, 0x80, 0x80, 0x80, 0x80]).2 = [0x30, 0x80, 0x80, 0x80, 0x80] := by
  decide +kernel

/-- Two bytes of a length field that goes on: two iterations. -/
example : work .utf8 none [0x30, 0x80, 0x81] = 2 ∧
    (Packet.read .utf8 none [0x30, 0x80, 0x81]).2 = [0x30, 0x80, 0x81] := by decide +kernel

/-- A session: the frame of a PINGREQ arrives in two pieces. -/
example : Session .utf8 none [] 2 1 1 := by
  have h0 : Session .utf8 none [] 0 0 0 := .start
  have h1 := h0.feed [0xc0] |>.read
  have h2 := h1.feed [0] |>.read
  exact h2

end Props
