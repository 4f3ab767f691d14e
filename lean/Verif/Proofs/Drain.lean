import Verif.Proofs.Main
/-
Frames, and reading everything from a buffer.
-/
namespace Mqtt

open Spec

variable {mode : StrMode} {max : Option Nat}

/-- A frame at the front is unique. -/
theorem remLen_unique {f f' r r' : Bytes} {n n' : Nat} (h : RemLen f n) (h' : RemLen f' n')
    (he : f ++ r = f' ++ r') : f = f' ∧ n = n' ∧ r = r' := by
  obtain ⟨b1, v, bd, rfl, hv, rfl⟩ := h
  obtain ⟨b1', v', bd', rfl, hv', rfl⟩ := h'
  simp only [List.cons_append, List.append_assoc, List.cons.injEq] at he
  obtain ⟨rfl, he⟩ := he
  obtain ⟨rfl, hn, he⟩ := varintRep_unique hv hv' he
  obtain ⟨rfl, rfl⟩ := List.append_inj he hn
  exact ⟨rfl, rfl, rfl⟩

theorem remLen_ne_nil {f : Bytes} {n : Nat} (h : RemLen f n) : 2 ≤ f.length := by
  obtain ⟨b1, v, bd, rfl, hv, rfl⟩ := h
  have := hv.length_pos
  simp; omega

theorem isFrame_iff {f : Bytes} : IsFrame f ↔ ∃ n, RemLen f n :=
  ⟨fun ⟨a, b, c, h1, h2⟩ => ⟨_, a, b, c, h1, h2, rfl⟩, fun ⟨_, a, b, c, h1, h2, _⟩ => ⟨a, b, c, h1, h2⟩⟩

/-- The two ways a call can end. -/
theorem read_dichotomy (mode : StrMode) (max : Option Nat) (b : Bytes) :
    (∃ e, Packet.read mode max b = (.err e, b) ∧
      ¬ ∃ f n r, b = f ++ r ∧ RemLen f n ∧ Admits max n) ∨
    (∃ f n r o, b = f ++ r ∧ RemLen f n ∧ Admits max n ∧
      ∀ c, Packet.read mode max (f ++ c) = (o, c)) := by
  cases read_cases mode max b with
  | tooShort hb hr =>
    refine .inl ⟨_, hr, ?_⟩
    rintro ⟨f, n, r, rfl, hf, -⟩
    have := remLen_ne_nil hf
    simp at hb; omega
  | openHeader b1 w hb h1 h3 hw hr =>
    refine .inl ⟨_, hr, ?_⟩
    rintro ⟨f, n, r, he, ⟨b1', v, bd, rfl, ⟨init, lst, rfl, -, -, hl, -⟩, rfl⟩, -⟩
    rw [hb] at he
    simp only [List.cons_append, List.append_assoc, List.cons.injEq] at he
    have := hw lst (by rw [he.2]; simp)
    omega
  | badHeader b1 w r hb h4 hw hr =>
    refine .inl ⟨_, hr, ?_⟩
    rintro ⟨f, n, r', he, ⟨b1', v, bd, rfl, ⟨init, lst, rfl, h3, -, hl, -⟩, rfl⟩, -⟩
    rw [hb] at he
    simp only [List.cons_append, List.append_assoc, List.cons.injEq] at he
    have h5 : lst ∈ w := by
      have h6 := congrArg (List.take 4) he.2
      rw [List.take_left' h4] at h6
      rw [h6, List.take_append]
      apply List.mem_append_right
      obtain ⟨k, hk⟩ : ∃ k, 4 - init.length = k + 1 := ⟨3 - init.length, by omega⟩
      rw [hk, List.take_succ_cons]
      simp
    have := hw lst h5
    omega
  | overLimit b1 v r n m hb hv hm hn hr =>
    refine .inl ⟨_, hr, ?_⟩
    rintro ⟨f, n', r', he, ⟨b1', v', bd, rfl, hv', rfl⟩, hadm⟩
    rw [hb] at he
    simp only [List.cons_append, List.append_assoc, List.cons.injEq] at he
    obtain ⟨-, hnn, -⟩ := varintRep_unique hv hv' he.2
    have := hadm m hm
    omega
  | openBody b1 v r n hb hv hm hn hr =>
    refine .inl ⟨_, hr, ?_⟩
    rintro ⟨f, n', r', he, ⟨b1', v', bd, rfl, hv', rfl⟩, hadm⟩
    rw [hb] at he
    simp only [List.cons_append, List.append_assoc, List.cons.injEq] at he
    obtain ⟨-, hnn, hr'⟩ := varintRep_unique hv hv' he.2
    have := congrArg List.length hr'
    simp at this; omega
  | frame b1 v bd r hb hv hm hr =>
    refine .inr ⟨b1 :: (v ++ bd), bd.length, r, frameOut mode b1 v bd, by rw [hb]; simp,
      ⟨b1, v, bd, rfl, hv, rfl⟩, not_overLimit.1 hm, fun c => ?_⟩
    have := read_frame (mode := mode) (b1 := b1) hv hm c
    simpa using this

theorem read_admitted {f : Bytes} {n : Nat} (hf : RemLen f n) (hm : Admits max n) :
    ∃ o, ∀ c, Packet.read mode max (f ++ c) = (o, c) := by
  rcases read_dichotomy mode max f with ⟨-, -, h⟩ | ⟨f', n', r, o, he, hf', -, hr⟩
  · exact absurd ⟨f, n, [], by simp, hf, hm⟩ h
  · obtain ⟨rfl, -, -⟩ := remLen_unique (r := []) (r' := r) hf hf' (by simpa using he)
    exact ⟨o, hr⟩

/-! ### Draining -/

theorem read_extend {b b1 : Bytes} {o : Out Packet} (h : Packet.read mode max b = (o, b1))
    (hne : b1 ≠ b) (c : Bytes) :
    Packet.read mode max (b ++ c) = (o, b1 ++ c) ∧ b1.length < b.length := by
  rcases read_dichotomy mode max b with ⟨e, he, -⟩ | ⟨f, n, r, o', rfl, hf, -, hr⟩
  · rw [he] at h; simp only [Prod.mk.injEq] at h; exact absurd h.2.symm hne
  · rw [hr r] at h
    simp only [Prod.mk.injEq] at h
    obtain ⟨rfl, rfl⟩ := h
    have := remLen_ne_nil hf
    exact ⟨by rw [List.append_assoc, hr], by simp; omega⟩

theorem drains_total (mode : StrMode) (max : Option Nat) (b : Bytes) :
    ∃ os r, Drains mode max b os r := by
  induction hk : b.length using Nat.strongRecOn generalizing b with
  | ind k ih =>
    rcases hr : Packet.read mode max b with ⟨o, b1⟩
    by_cases hne : b1 = b
    · exact ⟨[], b, .stop (by rw [hr]; exact hne)⟩
    · obtain ⟨os, r, h⟩ := ih b1.length (hk ▸ (read_extend hr hne []).2) b1 rfl
      exact ⟨o :: os, r, .step hr hne h⟩

theorem drains_det {b r r' : Bytes} {os os' : List (Out Packet)} (h : Drains mode max b os r)
    (h' : Drains mode max b os' r') : os = os' ∧ r = r' := by
  induction h generalizing os' r' with
  | stop h =>
    cases h' with
    | stop => exact ⟨rfl, rfl⟩
    | step h1 hne _ => rw [h1] at h; exact absurd h hne
  | step h1 hne _ ih =>
    cases h' with
    | stop h => rw [h1] at h; exact absurd h hne
    | step h1' hne' h' =>
      rw [h1] at h1'
      simp only [Prod.mk.injEq] at h1'
      obtain ⟨rfl, rfl⟩ := h1'
      obtain ⟨rfl, rfl⟩ := ih h'
      exact ⟨rfl, rfl⟩

theorem drains_append {a c r r' : Bytes} {os os' : List (Out Packet)}
    (h : Drains mode max a os r) (h' : Drains mode max (r ++ c) os' r') :
    Drains mode max (a ++ c) (os ++ os') r' := by
  induction h with
  | stop => exact h'
  | step h1 hne _ ih =>
    refine .step (read_extend h1 hne c).1 ?_ (ih h')
    intro he
    exact hne (List.append_cancel_right he)

theorem drains_left {a r : Bytes} {os : List (Out Packet)} (h : Drains mode max a os r) :
    Drains mode max r [] r := by
  induction h with
  | stop h => exact .stop h
  | step _ _ _ ih => exact ih

theorem feeds_total (mode : StrMode) (max : Option Nat) (b : Bytes) (cs : List Bytes) :
    ∃ os r, Feeds mode max b cs os r := by
  induction cs generalizing b with
  | nil => exact ⟨_, _, .nil b⟩
  | cons c cs ih =>
    obtain ⟨os, r, h⟩ := drains_total mode max (b ++ c)
    obtain ⟨os', r', h'⟩ := ih r
    exact ⟨_, _, .cons h h'⟩

theorem feeds_drains {b r : Bytes} {cs : List Bytes} {os : List (Out Packet)}
    (h : Feeds mode max b cs os r) (hb : Drains mode max b [] b) :
    Drains mode max (b ++ cs.flatten) os r := by
  induction h with
  | nil b => simpa using hb
  | @cons b c b1 b2 cs os1 os2 h1 h2 ih =>
    have := ih (drains_left h1)
    have := drains_append h1 this
    simpa using this

theorem drains_nil (mode : StrMode) (max : Option Nat) : Drains mode max [] [] [] := by
  refine .stop ?_
  cases read_cases mode max [] <;> simp_all

end Mqtt
