import Verif.Spec.Waiting
import Verif.Props.Exact
import Verif.Props.Pipeline
/-
C54: the loop that waits for the number of bytes it was asked for.
-/
namespace Props

open Mqtt Spec

section
variable {mode : StrMode} {max : Option Nat}

theorem holds_inv {b : Bytes} {ps : List Packet} {e : Option Err} (h : Holds mode max b ps e) :
    (∃ p r ps', Packet.read mode max b = (.ok p, r) ∧ ps = p :: ps' ∧ Holds mode max r ps' e) ∨
    (∃ k, Packet.read mode max b = (.err (.InsufficientBytes k), b) ∧ ps = [] ∧ e = none) ∨
    (∃ e' r, Packet.read mode max b = (.err e', r) ∧ (∀ k, e' ≠ .InsufficientBytes k) ∧ ps = [] ∧
      e = some e') := by
  cases h with
  | packet hf hn hm hr =>
    obtain ⟨b1, v, body, rfl, hv, ht, hb⟩ := hf
    obtain ⟨-, rfl, -⟩ := remLen_unique hn ⟨b1, v, body, rfl, hv, rfl⟩ (r := []) rfl
    exact .inl ⟨_, _, _, read_ok_iff.2 ⟨b1, v, body, by simp, hv, not_overLimit.2 hm, ht, hb⟩, rfl,
      hr⟩
  | rest h => exact .inr (.inl ⟨_, (C44_exact_error _ _ _ _ _).2 (.inl ⟨rfl, h⟩), rfl, rfl⟩)
  | head h hk => exact .inr (.inr ⟨_, _, (C44_exact_error _ _ _ _ _).2 (.inl ⟨rfl, h⟩), hk, rfl, rfl⟩)
  | frame hv hm he hk =>
    exact .inr (.inr ⟨_, _, (C44_exact_error _ _ _ _ _).2 (.inr ⟨_, _, _, rfl, hv, hm, he⟩), hk, rfl,
      rfl⟩)

/-- Either the call consumed a frame, and then it does the same in front of other bytes, or it
consumed nothing. -/
theorem read_consumed {b b' : Bytes} {o : Out Packet} (h : Packet.read mode max b = (o, b')) :
    (b' ≠ b ∧ ∀ c, Packet.read mode max (b ++ c) = (o, b' ++ c)) ∨
    (b' = b ∧ ∃ e, o = .err e) := by
  rcases read_dichotomy mode max b with ⟨e, he, -⟩ | ⟨f, n, r, o', rfl, hf, hm, hr⟩
  · rw [he] at h
    simp only [Prod.mk.injEq] at h
    exact .inr ⟨h.2.symm, e, h.1.symm⟩
  · rw [hr r] at h
    simp only [Prod.mk.injEq] at h
    obtain ⟨rfl, rfl⟩ := h
    refine .inl ⟨fun hh => ?_, fun c => by rw [List.append_assoc]; exact hr _⟩
    have h2 := remLen_ne_nil hf
    have := congrArg List.length hh
    simp only [List.length_append] at this
    omega

theorem waits_holds {buf s : Bytes} {ps' : List Packet} {e' : Option Err}
    (h : Waits mode max buf s ps' e') : ∀ ps e, Holds mode max (buf ++ s) ps e →
      ps' = ps ∧ e' = e := by
  induction h with
  | got hr _ ih =>
    intro ps e hh
    rcases read_consumed hr with ⟨-, hc⟩ | ⟨-, e, he⟩
    · rcases holds_inv hh with ⟨p, r, ps', h1, rfl, h2⟩ | ⟨k, h1, -⟩ | ⟨e', r, h1, -⟩
      · rw [hc] at h1
        simp only [Prod.mk.injEq, Out.ok.injEq] at h1
        obtain ⟨rfl, rfl⟩ := h1
        obtain ⟨rfl, rfl⟩ := ih _ _ h2
        exact ⟨rfl, rfl⟩
      · rw [hc] at h1; simp at h1
      · rw [hc] at h1; simp at h1
    · simp at he
  | more hr hk _ ih =>
    intro ps e hh
    rcases read_consumed hr with ⟨hne, hc⟩ | ⟨rfl, -⟩
    · exfalso
      rcases holds_inv hh with ⟨p, r, ps', h1, -⟩ | ⟨k, h1, -⟩ | ⟨e', r, h1, h2, -⟩
      · rw [hc] at h1; simp at h1
      · rw [hc] at h1
        simp only [Prod.mk.injEq] at h1
        exact hne (List.append_cancel_right h1.2)
      · rw [hc] at h1
        simp only [Prod.mk.injEq, Out.err.injEq] at h1
        exact h2 _ h1.1.symm
    · exact ih _ _ (by rw [List.append_assoc]; exact hh)
  | @starve buf b s k hr hs =>
    intro ps e hh
    have key : b = buf → ∃ k', Packet.read mode max (buf ++ s) =
        (.err (.InsufficientBytes k'), buf ++ s) := by
      rintro rfl
      rcases (C19_unchanged_iff _ _ _ _).1 hr with ⟨h1, rfl⟩ | ⟨b1, w, rfl, hw, h1, rfl⟩ |
        ⟨b1, v, n, t, rfl, hv, hm, ht, rfl⟩
      · exact ⟨_, (C19_unchanged_iff _ _ _ _).2 (.inl ⟨by simp; omega, rfl⟩)⟩
      · have : s = [] := List.eq_nil_of_length_eq_zero (by omega)
        subst this
        exact ⟨1, by rw [List.append_nil]; exact hr⟩
      · exact ⟨_, (C19_unchanged_iff _ _ _ _).2 (.inr (.inr ⟨b1, v, n, t ++ s, by simp, hv, hm,
          by simp; omega, rfl⟩))⟩
    rcases read_consumed hr with ⟨hne, hc⟩ | ⟨rfl, -⟩
    · exfalso
      rcases holds_inv hh with ⟨p, r, ps', h1, -⟩ | ⟨k, h1, -⟩ | ⟨e', r, h1, h2, -⟩
      · rw [hc] at h1; simp at h1
      · rw [hc] at h1
        simp only [Prod.mk.injEq] at h1
        exact hne (List.append_cancel_right h1.2)
      · rw [hc] at h1
        simp only [Prod.mk.injEq, Out.err.injEq] at h1
        exact h2 _ h1.1.symm
    · obtain ⟨k', hk'⟩ := key rfl
      rcases holds_inv hh with ⟨p, r, ps', h1, -⟩ | ⟨k, h1, rfl, rfl⟩ | ⟨e', r, h1, h2, -⟩
      · rw [hk'] at h1; simp at h1
      · exact ⟨rfl, rfl⟩
      · rw [hk'] at h1
        simp only [Prod.mk.injEq, Out.err.injEq] at h1
        exact absurd h1.1.symm (h2 _)
  | @fail buf b s e' hr he =>
    intro ps e hh
    have key : ∃ r, Packet.read mode max (buf ++ s) = (.err e', r) := by
      rcases read_consumed hr with ⟨-, hc⟩ | ⟨rfl, -⟩
      · exact ⟨_, hc s⟩
      · exact ⟨_, C17_final_error mode max _ s _ hr he⟩
    obtain ⟨r, hk⟩ := key
    rcases holds_inv hh with ⟨p, r, ps', h1, -⟩ | ⟨k, h1, -, -⟩ | ⟨e'', r', h1, h2, rfl, rfl⟩
    · rw [hk] at h1; simp at h1
    · rw [hk] at h1
      simp only [Prod.mk.injEq, Out.err.injEq] at h1
      exact absurd h1.1 (he _)
    · rw [hk] at h1
      simp only [Prod.mk.injEq, Out.err.injEq] at h1
      exact ⟨rfl, by rw [h1.1]⟩

theorem waits_total (mode : StrMode) (max : Option Nat) : ∀ (s buf : Bytes),
    ∃ ps e, Waits mode max buf s ps e := by
  have key : ∀ (n m : Nat) (s buf : Bytes), s.length ≤ n → buf.length ≤ m →
      ∃ ps e, Waits mode max buf s ps e := by
    intro n
    induction n with
    | zero =>
      intro m
      induction m with
      | zero =>
        intro s buf hs hb
        have : buf = [] := List.eq_nil_of_length_eq_zero (by omega)
        subst this
        exact ⟨_, _, .starve (k := 2) rfl (by omega)⟩
      | succ m ih =>
        intro s buf hs hb
        rcases hr : Packet.read mode max buf with ⟨o, b⟩
        have hl := read_consumed hr
        have htot := C13_read_total mode max buf
        cases o with
        | ok p =>
          rcases hl with ⟨hne, hc⟩ | ⟨-, e, he⟩
          · obtain ⟨ps, e, h⟩ := ih s b hs (by
              obtain ⟨b1, v, bd, rfl, -⟩ := read_ok_iff.1 hr
              simp at hb; omega)
            exact ⟨_, _, .got hr h⟩
          · simp at he
        | err e =>
          by_cases he : ∃ k, e = .InsufficientBytes k
          · obtain ⟨k, rfl⟩ := he
            have : 1 ≤ k := by
              rcases C19_insufficient_partial mode max buf b k hr with ⟨-, h, -⟩ | ⟨rfl, -⟩ <;> omega
            exact ⟨_, _, .starve hr (by omega)⟩
          · exact ⟨_, _, .fail hr (fun k hk => he ⟨k, hk⟩)⟩
        | panic => rw [hr] at htot; simp at htot
        | diverge => rw [hr] at htot; simp at htot
    | succ n ihn =>
      intro m
      induction m with
      | zero =>
        intro s buf hs hb
        have : buf = [] := List.eq_nil_of_length_eq_zero (by omega)
        subst this
        have h0 : Packet.read mode max [] = (.err (.InsufficientBytes 2), []) := rfl
        by_cases hs2 : s.length < 2
        · exact ⟨_, _, .starve h0 hs2⟩
        · obtain ⟨ps, e, h⟩ := ihn _ (s.drop 2) ([] ++ s.take 2) (by simp; omega) (Nat.le_refl _)
          refine ⟨ps, e, ?_⟩
          rw [← List.take_append_drop 2 s]
          exact .more h0 (by simp; omega) h
      | succ m ih =>
        intro s buf hs hb
        rcases hr : Packet.read mode max buf with ⟨o, b⟩
        have hl := read_consumed hr
        have htot := C13_read_total mode max buf
        cases o with
        | ok p =>
          rcases hl with ⟨hne, hc⟩ | ⟨-, e, he⟩
          · obtain ⟨ps, e, h⟩ := ih s b hs (by
              obtain ⟨b1, v, bd, rfl, -⟩ := read_ok_iff.1 hr
              simp at hb; omega)
            exact ⟨_, _, .got hr h⟩
          · simp at he
        | err e =>
          by_cases he : ∃ k, e = .InsufficientBytes k
          · obtain ⟨k, rfl⟩ := he
            have hk1 : 1 ≤ k := by
              rcases C19_insufficient_partial mode max buf b k hr with ⟨-, h, -⟩ | ⟨rfl, -⟩ <;> omega
            by_cases hsk : s.length < k
            · exact ⟨_, _, .starve hr hsk⟩
            · obtain ⟨ps, e, h⟩ := ihn _ (s.drop k) (b ++ s.take k) (by simp; omega) (Nat.le_refl _)
              refine ⟨ps, e, ?_⟩
              rw [← List.take_append_drop k s]
              exact .more hr (by simp; omega) h
          · exact ⟨_, _, .fail hr (fun k hk => he ⟨k, hk⟩)⟩
        | panic => rw [hr] at htot; simp at htot
        | diverge => rw [hr] at htot; simp at htot
  exact fun s buf => key _ _ s buf (Nat.le_refl _) (Nat.le_refl _)

theorem holds_of_readAll {b r : Bytes} {ps : List Packet} (h : ReadAll mode max b ps r) :
    ∀ {qs e}, Holds mode max r qs e → Holds mode max b (ps ++ qs) e := by
  induction h with
  | nil => intro qs e hh; exact hh
  | cons h1 _ ih =>
    intro qs e hh
    obtain ⟨b1, v, bd, rfl, hv, hm, ht, hb⟩ := read_ok_iff.1 h1
    have := Holds.packet (mode := mode) (max := max) (f := b1 :: (v ++ bd))
      ⟨b1, v, bd, rfl, hv, ht, hb⟩ ⟨b1, v, bd, rfl, hv, rfl⟩ (not_overLimit.1 hm) (ih hh)
    simpa using this

end

/-- C54, partial: for every stream without a frame that breaks off in a property section, however
the bytes arrive, the loop returns the packets that are in the stream, in order, and then the error
of the first defective frame; without one it waits only when all complete frames have been
returned. Missing: the streams with such a frame (`C54_covered`), see `C54_counterexample`. -/
theorem C54_loop_partial (mode : StrMode) (max : Option Nat) (s : Bytes) (ps : List Packet)
    (e : Option Err) (h : Holds mode max s ps e) :
    Waits mode max [] s ps e ∧ ∀ ps' e', Waits mode max [] s ps' e' → ps' = ps ∧ e' = e := by
  have huni : ∀ ps' e', Waits mode max [] s ps' e' → ps' = ps ∧ e' = e :=
    fun ps' e' hw => waits_holds hw ps e h
  obtain ⟨ps', e', hw⟩ := waits_total mode max s []
  obtain ⟨rfl, rfl⟩ := huni _ _ hw
  exact ⟨hw, huni⟩

/-- C54: every stream either has such an account, and only one, or it has a frame that breaks off in
a property section. -/
theorem C54_covered (mode : StrMode) (max : Option Nat) (s : Bytes) :
    ((∃ ps e, Holds mode max s ps e ∧ ∀ ps' e', Holds mode max s ps' e' → ps' = ps ∧ e' = e) ∧
      ¬ HasCut mode max s) ∨
    ((∀ ps e, ¬ Holds mode max s ps e) ∧ HasCut mode max s) := by
  have hex : (∃ ps e, Holds mode max s ps e) ∨ HasCut mode max s := by
    have key : ∀ (n : Nat) (s : Bytes), s.length ≤ n →
        (∃ ps e, Holds mode max s ps e) ∨ HasCut mode max s := by
      intro n
      induction n with
      | zero =>
        intro s hs
        have : s = [] := List.eq_nil_of_length_eq_zero (by omega)
        subst this
        exact .inl ⟨[], none, .rest (k := 2) (.inl ⟨by simp, rfl⟩)⟩
      | succ n ih =>
        intro s hs
        have htot := C13_read_total mode max s
        rcases hr : Packet.read mode max s with ⟨o, b⟩
        cases o with
        | ok p =>
          obtain ⟨b1, v, bd, hb, -⟩ := read_ok_iff.1 hr
          have hlen := congrArg List.length hb
          simp only [List.length_cons, List.length_append] at hlen
          rcases ih b (by omega) with ⟨ps, e, h⟩ | ⟨ps, b1, v, body, r, h1, h2⟩
          · exact .inl ⟨p :: ps, e, holds_of_readAll (.cons hr (.nil _)) h⟩
          · exact .inr ⟨p :: ps, b1, v, body, r, .cons hr h1, h2⟩
        | err e =>
          rcases (C44_exact_error _ _ _ _ _).1 hr with ⟨-, h⟩ | ⟨b1, v, body, rfl, hv, hm, he⟩
          · by_cases hk : ∃ k, e = .InsufficientBytes k
            · obtain ⟨k, rfl⟩ := hk
              exact .inl ⟨_, _, .rest h⟩
            · exact .inl ⟨_, _, .head h fun k h' => hk ⟨k, h'⟩⟩
          · by_cases hk : ∃ k, e = .InsufficientBytes k
            · obtain ⟨k, rfl⟩ := hk
              exact .inr ⟨[], b1, v, body, b, .nil _, hv, hm, (frameErr_cut.1 he).2⟩
            · exact .inl ⟨_, _, .frame hv hm he fun k h' => hk ⟨k, h'⟩⟩
        | panic => rw [hr] at htot; simp at htot
        | diverge => rw [hr] at htot; simp at htot
    exact key _ s (Nat.le_refl _)
  have hexcl : HasCut mode max s → ∀ ps e, ¬ Holds mode max s ps e := by
    rintro ⟨qs, b1, v, body, r, hall, hv, hm, hc⟩
    have hcut := ((C19_consumed_iff mode max _ r 1).2 ⟨rfl, b1, v, body, rfl, hv, hm, hc⟩)
    generalize hz : b1 :: (v ++ (body ++ r)) = z at hall hcut
    obtain ⟨hcut1, hcut2⟩ := hcut
    clear hz hex
    induction hall with
    | nil b =>
      intro ps e hh
      rcases holds_inv hh with ⟨p, r, ps', h1, -⟩ | ⟨k, h1, -⟩ | ⟨e', r, h1, h2, -⟩
      · rw [hcut1] at h1; simp at h1
      · rw [hcut1] at h1
        simp only [Prod.mk.injEq] at h1
        exact hcut2 h1.2
      · rw [hcut1] at h1
        simp only [Prod.mk.injEq, Out.err.injEq] at h1
        exact h2 _ h1.1.symm
    | cons h0 _ ih =>
      intro ps e hh
      rcases holds_inv hh with ⟨p, r, ps', h1, -, h2⟩ | ⟨k, h1, -⟩ | ⟨e', r, h1, -⟩
      · rw [h0] at h1
        simp only [Prod.mk.injEq] at h1
        obtain ⟨-, rfl⟩ := h1
        exact ih hcut1 hcut2 _ _ h2
      · rw [h0] at h1; simp at h1
      · rw [h0] at h1; simp at h1
  by_cases hc : HasCut mode max s
  · exact .inr ⟨hexcl hc, hc⟩
  · rcases hex with ⟨ps, e, h⟩ | h
    · refine .inl ⟨⟨ps, e, h, fun ps' e' h' => ?_⟩, hc⟩
      obtain ⟨hw, -⟩ := C54_loop_partial mode max s ps' e' h'
      exact (C54_loop_partial mode max s ps e h).2 _ _ hw
    · exact absurd h hc

/-- C54: what was written by a sender arrives, however the bytes are divided, and then the loop
waits. -/
theorem C54_written (mode : StrMode) (max : Option Nat) (ps : List Packet) (buf : Bytes)
    (hw : WriteAll ps [] buf)
    (hp : ∀ p ∈ ps, StringsOk mode p ∧ Readable p ∧ ¬ Lossy p ∧ Admits max (body p).length)
    (hc : ∀ p ∈ ps.tail, ¬ IsConnect p) (qs : List Packet) (e : Option Err)
    (h : Waits mode max [] buf qs e) : qs = ps.map norm ∧ e = none := by
  have h1 := C12_pipeline_partial mode max ps buf [] hw hp hc
  have h2 := holds_of_readAll h1 (.rest (k := 2) (.inl ⟨by simp, rfl⟩))
  rw [List.append_nil, List.append_nil] at h2
  exact (C54_loop_partial mode max buf _ _ h2).2 _ _ h

/-- C54: the loop never runs into a dead end: whatever is in the buffer and still to arrive, it
returns, fails or waits; it does not panic. -/
theorem C54_total (mode : StrMode) (max : Option Nat) (buf s : Bytes) :
    ∃ ps e, Waits mode max buf s ps e := waits_total mode max s buf

/-- C54 does not hold in full: a DISCONNECT with reason 0x89 and without property length, which
MQTT 5 allows, and a PINGREQ behind it. If all bytes arrive at once, the loop waits forever, with
the complete PINGREQ in its buffer; if the PINGREQ arrives later, it is returned. Neither way is the
DISCONNECT, or an error, returned. -/
theorem C54_counterexample :
    Waits .utf8 none [0xE0, 0x01, 0x89, 0xC0, 0x00] [] [] none ∧
    Waits .utf8 none [0xE0, 0x01, 0x89] [0xC0, 0x00] [.PingReq] none := by
  refine ⟨.starve (k := 1) (b := [0xC0, 0x00]) (by decide +kernel) (by decide), ?_⟩
  refine .more (k := 1) (b := []) (x := [0xC0, 0x00]) (y := []) (by decide +kernel) (by decide) ?_
  refine .got (b := []) (by decide +kernel) ?_
  exact .starve (k := 2) (b := []) rfl (by decide)

/-- A PINGREQ, a PUBACK with an unknown reason and a rest. -/
example : Holds .utf8 none [0xC0, 0x00, 0x40, 0x03, 0, 1, 0x77, 0xFF] [.PingReq]
    (some (.InvalidConnectReturnCode 0x77)) := by
  refine .packet (f := [0xC0, 0x00]) (n := 0) ⟨0xC0, [0], [], rfl, varintRep_small 0 (by decide), rfl,
    ?_⟩ ⟨0xC0, [0], [], rfl, varintRep_small 0 (by decide), rfl⟩ (fun _ h => by cases h)
    (.frame (b1 := 0x40) (v := [3]) (body := [0, 1, 0x77]) (r := [0xFF])
      (varintRep_small 3 (by decide)) (fun _ h => by cases h)
      (.inr (.inr ⟨.inl (by simp), .inr ⟨1, [0, 1], [0x77], rfl, rfl, 0x77, [], rfl,
        .inl ⟨rfl, ?_, rfl⟩⟩⟩)) (by simp))
  · trivial
  · rintro ⟨r, hr⟩; cases r <;> simp [pubAckCode] at hr

/-- The empty buffer asks for two bytes, and they arrive. -/
example : Waits .utf8 none [] [0xC0, 0x00] [.PingReq] none :=
  .more (k := 2) (b := []) (x := [0xC0, 0x00]) (y := []) rfl (by decide)
    (.got (b := []) (by decide +kernel) (.starve (k := 2) (b := []) rfl (by decide)))

end Props
