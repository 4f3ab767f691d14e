import Verif.Spec.Limits
import Verif.Props.Framing
import Verif.Props.Dispatch
/-
C75: what a change of the limit changes.
-/
namespace Props

open Mqtt Spec

theorem refused_iff {mode : StrMode} {m : Nat} {b : Bytes} :
    (∃ b1 v n r, b = b1 :: (v ++ r) ∧ VarintRep v n ∧ m < n ∧
      Packet.read mode (some m) b = (.err (.PayloadSizeLimitExceeded n m), b)) ∨
    ((∀ b1 v n r, b = b1 :: (v ++ r) → VarintRep v n → n ≤ m) ∧
      Packet.read mode (some m) b = Packet.read mode none b) := by
  by_cases h : ∀ b1 v n r, b = b1 :: (v ++ r) → VarintRep v n → n ≤ m
  · exact .inr ⟨h, C18_within_limit mode m b h⟩
  · refine .inl ?_
    apply Classical.byContradiction
    intro hn
    refine h fun b1 v n r hb hv => Classical.byContradiction fun hlt => hn ?_
    refine ⟨b1, v, n, r, hb, hv, by omega, ?_⟩
    rw [hb]
    exact C18_over_limit mode m n b1 v r hv (by omega)

theorem none_not_refused (mode : StrMode) (b : Bytes) :
    refused (Packet.read mode none b).1 = false := by
  generalize hr : Packet.read mode none b = x
  obtain ⟨o, r⟩ := x
  cases o with
  | err e =>
    cases e with
    | PayloadSizeLimitExceeded n m =>
      exfalso
      rcases C42_errors mode none b r _ hr with ⟨-, h | h | h⟩ | ⟨b1, v, bd, -, -, -, h | h | h⟩
      · obtain ⟨k, h, -⟩ := h; cases h
      · cases h.1
      · obtain ⟨_, _, _, _, _, h, -⟩ := h; cases h
      · cases h.2
      · cases h.2.2.2
      · have h := h.2
        generalize b1.toNat / 16 = t at h
        unfold FrameError at h
        split at h <;> simp [ContentError] at h
    | _ => rfl
  | _ => rfl

/-- C75: the limit does nothing but refuse: a call with a limit is either refused, with the length
announced, which is above the limit, and everything left in the stream, or it does what it does
without limit. -/
theorem C75_only_refuses (mode : StrMode) (m : Nat) (b : Bytes) :
    (∃ n, m < n ∧ Packet.read mode (some m) b = (.err (.PayloadSizeLimitExceeded n m), b)) ∨
    (refused (Packet.read mode (some m) b).1 = false ∧
      Packet.read mode (some m) b = Packet.read mode none b) := by
  rcases refused_iff (mode := mode) (m := m) (b := b) with ⟨_, _, n, _, -, -, h1, h2⟩ | ⟨-, h⟩
  · exact .inl ⟨n, h1, h2⟩
  · refine .inr ⟨?_, h⟩
    rw [h]; exact none_not_refused mode b

/-- C75: after a refusal the same stream is read with a higher limit: exactly the limits from the
announced length on are enough, and then the packet is read as without limit. -/
theorem C75_raise (mode : StrMode) (m n k : Nat) (b r : Bytes)
    (h : Packet.read mode (some m) b = (.err (.PayloadSizeLimitExceeded n k), r)) (m' : Nat) :
    k = m ∧ r = b ∧ m < n ∧
    Packet.read mode (some m') b =
      if n ≤ m' then Packet.read mode none b else (.err (.PayloadSizeLimitExceeded n m'), b) := by
  rcases refused_iff (mode := mode) (m := m) (b := b) with ⟨b1, v, n', r', hb, hv, h1, h2⟩ | ⟨-, h'⟩
  · rw [h2] at h
    simp only [Prod.mk.injEq, Out.err.injEq, Err.PayloadSizeLimitExceeded.injEq] at h
    obtain ⟨⟨rfl, rfl⟩, rfl⟩ := h
    refine ⟨rfl, rfl, h1, ?_⟩
    by_cases hm : n' ≤ m'
    · rw [if_pos hm]
      refine C18_within_limit mode m' b ?_
      intro c1 w k s hc hw
      rw [hb] at hc
      obtain ⟨-, he⟩ := List.cons.inj hc
      obtain ⟨-, e, -⟩ := varintRep_unique hv hw he
      omega
    · rw [if_neg hm, hb]
      exact C18_over_limit mode m' n' b1 v r' hv (by omega)
  · exfalso
    rw [h'] at h
    have := none_not_refused mode b
    rw [h] at this
    cases this

/-- C75: what is not refused is not changed by a higher limit. -/
theorem C75_monotone (mode : StrMode) (m m' : Nat) (hm : m ≤ m') (b : Bytes)
    (h : refused (Packet.read mode (some m) b).1 = false) :
    Packet.read mode (some m') b = Packet.read mode (some m) b := by
  rcases refused_iff (mode := mode) (m := m) (b := b) with ⟨_, _, n, _, -, -, -, h2⟩ | ⟨h1, h2⟩
  · rw [h2] at h; cases h
  · rw [h2]
    exact C18_within_limit mode m' b fun b1 v n r hb hv => Nat.le_trans (h1 b1 v n r hb hv) hm

/-- C75: for whole histories: a receiver that changes its limit from call to call sees, apart from
the refusals, exactly what it would see without any limit. -/
theorem C75_history (mode : StrMode) (b r : Bytes) (cs : List (Option Nat × Out Packet))
    (h : Calls mode b cs r) :
    Calls mode b ((cs.filter fun c => !refused c.2).map fun c => (none, c.2)) r := by
  induction h with
  | nil b => exact .nil b
  | @cons max o b b1 b2 cs h1 _ ih =>
    have key : (refused o = false ∧ Packet.read mode none b = (o, b1)) ∨
        (refused o = true ∧ b1 = b) := by
      have hn := none_not_refused mode b
      cases max with
      | none => rw [h1] at hn; exact .inl ⟨hn, h1⟩
      | some m =>
        rcases C75_only_refuses mode m b with ⟨n, -, h2⟩ | ⟨-, h2⟩
        · rw [h2] at h1
          simp only [Prod.mk.injEq] at h1
          exact .inr ⟨by rw [← h1.1]; rfl, h1.2.symm⟩
        · have := h2.symm.trans h1
          rw [this] at hn
          exact .inl ⟨hn, this⟩
    rcases key with ⟨hr, hk⟩ | ⟨hr, rfl⟩
    · rw [List.filter_cons_of_pos (by simp [hr])]
      exact .cons hk ih
    · rw [List.filter_cons_of_neg (by simp [hr])]
      exact ih

/-- A PUBACK of remaining length 3 is refused under a limit of 2, and read when the limit is raised. -/
example : Calls .utf8 [0x40, 3, 0, 1, 0x10, 0xC0, 0]
    [(some 2, .err (.PayloadSizeLimitExceeded 3 2)),
     (some 3, .ok (.PubAck { pkid := 1, reason := .NoMatchingSubscribers, properties := none })),
     (some 0, .ok .PingReq)] [] :=
  .cons (b1 := [0x40, 3, 0, 1, 0x10, 0xC0, 0]) (by decide +kernel)
    (.cons (b1 := [0xC0, 0]) (by decide +kernel) (.cons (b1 := []) (by decide +kernel) (.nil _)))

end Props
