import Verif.Spec.Buffering
import Verif.Props.Exact
/-
C68: how many bytes a receiver holds, asks for and fetches.
-/
namespace Props

open Mqtt Spec

theorem le_longest {max : Option Nat} {v : Bytes} {n : Nat} (hv : VarintRep v n)
    (hm : Admits max n) : 1 + v.length + n ≤ longest max := by
  have h4 := hv.length_le
  have hn := hv.le
  unfold longest
  cases max with
  | none => simp only [Option.getD_none]; omega
  | some m => have := hm m rfl; simp only [Option.getD_some]; omega

/-- C68: `InsufficientBytes(k)` with the buffer left as it was never asks for bytes beyond the longest
frame that the limit lets pass, and for at least one. -/
theorem C68_asked (mode : StrMode) (max : Option Nat) (b : Bytes) (k : Nat)
    (h : Packet.read mode max b = (.err (.InsufficientBytes k), b)) :
    1 ≤ k ∧ b.length + k ≤ longest max := by
  rcases (C19_unchanged_iff mode max b k).1 h with ⟨h, rfl⟩ | ⟨b1, w, rfl, hw, hc, rfl⟩ |
    ⟨b1, v, n, s, rfl, hv, hm, hs, rfl⟩
  · unfold longest; omega
  · have := hc.1
    unfold longest
    simp only [List.length_cons]
    omega
  · have := le_longest hv hm
    simp only [List.length_cons, List.length_append]
    omega

/-- C68: the bound is reached, for every limit: one byte may be missing to the longest frame. -/
theorem C68_sharp (mode : StrMode) (m : Nat) (hm : m ≤ 268435455) :
    ∃ b, b.length + 1 = longest (some m) ∧
      Packet.read mode (some m) b = (.err (.InsufficientBytes 1), b) := by
  let d : Nat → UInt8 := fun i => UInt8.ofNat (128 + m / i % 128)
  have hd : ∀ i, (d i).toNat = 128 + m / i % 128 := by
    intro i
    simp only [d, UInt8.toNat_ofNat']
    omega
  by_cases h0 : m = 0
  · subst h0
    exact ⟨[0xC0, d 1, d 1, d 1], rfl, (C19_unchanged_iff _ _ _ _).2
      (.inr (.inl ⟨0xC0, [d 1, d 1, d 1], rfl, by simp, ⟨by simp, by
        intro x hx
        simp only [List.mem_cons, List.not_mem_nil, or_false, or_self] at hx
        rw [hx, hd]; omega⟩, rfl⟩))⟩
  · refine ⟨0x30 :: ([d 1, d 128, d 16384, UInt8.ofNat (m / 2097152)] ++
      List.replicate (m - 1) 0), ?_, (C19_unchanged_iff _ _ _ _).2
      (.inr (.inr ⟨0x30, _, m, List.replicate (m - 1) 0, rfl, ?_, ?_, ?_, ?_⟩))⟩
    · simp [longest]; omega
    · refine ⟨[d 1, d 128, d 16384], UInt8.ofNat (m / 2097152), rfl, by simp, ?_, ?_, ?_⟩
      · intro x hx
        simp only [List.mem_cons, List.not_mem_nil, or_false] at hx
        rcases hx with rfl | rfl | rfl <;> rw [hd] <;> omega
      · rw [UInt8.toNat_ofNat']; omega
      · simp only [digits, hd, UInt8.toNat_ofNat']; omega
    · intro m' h; cases h; exact Nat.le_refl _
    · simp; omega
    · simp; omega

/-- What is behind a call. -/
theorem after_read (mode : StrMode) (max : Option Nat) (b : Bytes) :
    (Packet.read mode max b).2 = b ∨
    ∃ f n, b = f ++ (Packet.read mode max b).2 ∧ RemLen f n ∧ Admits max n := by
  by_cases h : ∃ f n r, b = f ++ r ∧ RemLen f n ∧ Admits max n
  · obtain ⟨f, n, r, rfl, hf, hm⟩ := h
    refine .inr ⟨f, n, ?_, hf, hm⟩
    rw [C14_frame_consumed mode max f r n hf hm]
  · obtain ⟨e, he⟩ := C14_nothing_consumed mode max b h
    exact .inl (by rw [he])

theorem remLen_length {f : Bytes} {n : Nat} (h : RemLen f n) : 2 ≤ f.length := by
  obtain ⟨b1, v, bd, rfl, hv, rfl⟩ := h
  have := hv.length_pos
  simp only [List.length_cons, List.length_append]
  omega

/-- C68: a receiver that appends at most `c` bytes, and only when a call has asked for bytes and left
the buffer as it was, never holds as much as the longest frame and `c` bytes. -/
theorem C68_bound (mode : StrMode) (max : Option Nat) (c : Nat) (b : Bytes)
    (h : Holding mode max (Careful c) b) : b.length + 1 ≤ longest max + c := by
  induction h with
  | start => simp only [List.length_nil]; unfold longest; omega
  | @read b _ ih =>
    rcases after_read mode max b with e | ⟨f, n, e, -, -⟩
    · rw [e]; exact ih
    · have := congrArg List.length e
      rw [List.length_append] at this
      omega
  | fetch _ hr hx _ =>
    obtain ⟨rfl, hx⟩ := hx
    have := C68_asked mode max _ _ hr
    rw [List.length_append]
    omega

/-- No complete frame in the buffer has bytes behind it. -/
def Single (max : Option Nat) (b : Bytes) : Prop :=
  ∀ f n s, b = f ++ s → RemLen f n → Admits max n → s = []

theorem single_read {mode : StrMode} {max : Option Nat} {b : Bytes} (h : Single max b) :
    (Packet.read mode max b).2 = b ∨ (Packet.read mode max b).2 = [] := by
  rcases after_read mode max b with e | ⟨f, n, e, hf, hm⟩
  · exact .inl e
  · exact .inr (h f n _ e hf hm)

theorem single_fetch {mode : StrMode} {max : Option Nat} {b x : Bytes} {k : Nat}
    (hr : Packet.read mode max b = (.err (.InsufficientBytes k), b)) (hx : x.length = k) :
    Single max (b ++ x) := by
  intro f n s e hf hm
  rcases List.append_eq_append_iff.1 e with ⟨q, hq, hs⟩ | ⟨q, hq, hs⟩
  · by_cases hq0 : q = []
    · subst hq0
      rw [List.append_nil] at hq
      subst hq
      have := C14_frame_consumed mode max f [] n hf hm
      rw [List.append_nil, hr] at this
      simp only at this
      have := remLen_length hf
      simp_all
    · obtain ⟨b1, v, bd, hf', hv, rfl⟩ := hf
      obtain ⟨k', hk', -, hle, -⟩ := C16_incomplete mode max b1 v bd b q hv hm
        (hf'.symm.trans hq) hq0
      rw [hr] at hk'
      simp only [Prod.mk.injEq, Out.err.injEq, Err.InsufficientBytes.injEq, and_true] at hk'
      have := congrArg List.length hs
      rw [List.length_append] at this
      exact List.eq_nil_of_length_eq_zero (by omega)
  · subst hq
    have := C14_frame_consumed mode max f q n hf hm
    rw [hr] at this
    have := congrArg List.length this
    have := remLen_length hf
    simp only [List.length_append] at *
    omega

/-- C68: a receiver that fetches exactly the bytes asked for never holds more than the longest frame,
and never a byte behind a complete frame. -/
theorem C68_exactly (mode : StrMode) (max : Option Nat) (b : Bytes)
    (h : Holding mode max Exactly b) : b.length ≤ longest max ∧
      ∀ f n s, b = f ++ s → RemLen f n → Admits max n → s = [] := by
  suffices b.length ≤ longest max ∧ Single max b from this
  have nil : ∀ x : Bytes, x.length ≤ 1 → Single max x := by
    intro x hx f n s e hf _
    have := remLen_length hf
    have := congrArg List.length e
    rw [List.length_append] at this
    omega
  induction h with
  | start => exact ⟨by simp, nil [] (by simp)⟩
  | @read b _ ih =>
    rcases single_read (mode := mode) ih.2 with e | e <;> rw [e]
    · exact ih
    · exact ⟨by simp, nil [] (by simp)⟩
  | @fetch b b' x k _ hr hx ih =>
    by_cases hb : b' = b
    · subst hb
      refine ⟨?_, single_fetch hr hx⟩
      have := C68_asked mode max _ _ hr
      rw [List.length_append, hx]
      exact this.2
    · obtain ⟨rfl, -⟩ := (C19_consumed_iff mode max b b' k).1 ⟨hr, hb⟩
      have : b' = [] := by
        rcases single_read (mode := mode) ih.2 with e | e <;> rw [hr] at e
        · exact absurd e hb
        · exact e
      subst this
      rw [List.nil_append]
      unfold Exactly at hx
      exact ⟨by unfold longest; omega, nil x (by omega)⟩

/-- C68: but a receiver that appends bytes whenever it is asked for them, even if the call has changed
the buffer, has no bound, with any limit but 0: a peer can let its buffer grow forever, by sending
DISCONNECT frames with a reason and without property length. -/
theorem C68_careless (mode : StrMode) (max : Option Nat) (hm : Admits max 1) (n : Nat) :
    ∃ b, Holding mode max (Careless 6) b ∧ n ≤ b.length := by
  let d : Bytes := [0xE0, 0x01, 0x89]
  have hd : ∀ r, Packet.read mode max (d ++ r) = (.err (.InsufficientBytes 1), r) := fun r =>
    (C38_disconnect_exception mode max 0x89 d r ⟨[1], rfl, varintRep_small 1 (by decide)⟩ hm).1
      ⟨.ServerBusy, rfl⟩
  have h2 : Holding mode max (Careless 6) ([] ++ d) :=
    .fetch (b := []) (k := 2) .start (by
      have := (C19_unchanged_iff mode max [] 2).2 (.inl ⟨by decide, rfl⟩)
      exact this) (by show 3 ≤ 6; decide)
  let rep : Nat → Bytes := fun n => (List.replicate n d).flatten
  have front : ∀ n, rep (n + 1) = d ++ rep n := fun n => rfl
  have back : ∀ n, rep n ++ d = d ++ rep n := by
    intro n
    induction n with
    | zero => rfl
    | succ n ih => rw [front, List.append_assoc, ih]
  have all : ∀ n, Holding mode max (Careless 6) (rep (n + 1)) := by
    intro n
    induction n with
    | zero => exact h2
    | succ n ih =>
      rw [front, front, ← back, ← List.append_assoc, ← back, List.append_assoc]
      exact .fetch ih (by rw [front]; exact hd _) (by show 6 ≤ 6; decide)
  refine ⟨rep (n + 1), all n, ?_⟩
  have : ∀ n, (rep n).length = 3 * n := by
    intro n
    induction n with
    | zero => rfl
    | succ n ih => rw [front, List.length_append, ih]; show 3 + _ = _; omega
  rw [this]
  omega

/-! ### Fetching exactly what is asked for, one frame -/

theorem fetch_unique {mode : StrMode} {max : Option Nat} {b s b' s' c' t' : Bytes} {n m : Nat}
    {o o' : Out Packet} (h : Fetch mode max b s n o b' s') (h' : Fetch mode max b s m o' c' t') :
    n = m ∧ o = o' ∧ b' = c' ∧ s' = t' := by
  induction h generalizing m o' c' t' with
  | done hr hn =>
    cases h' with
    | done hr' _ => rw [hr] at hr'; cases hr'; exact ⟨rfl, rfl, rfl, rfl⟩
    | more hr' _ _ => rw [hr] at hr'; cases hr'; exact absurd ⟨_, rfl, rfl⟩ hn
  | @more b x s b' s' k n o hr hx _ ih =>
    generalize hg : x ++ s = g at h'
    cases h' with
    | done hr' hn => rw [hr] at hr'; cases hr'; exact absurd ⟨_, rfl, rfl⟩ hn
    | more hr' hx' h2 =>
      rw [hr] at hr'
      cases hr'
      obtain ⟨rfl, rfl⟩ := List.append_inj hg (hx.trans hx'.symm)
      obtain ⟨rfl, h⟩ := ih h2
      exact ⟨rfl, h⟩

theorem fetch_frame {mode : StrMode} {max : Option Nat} {b1 : UInt8} {v body r : Bytes}
    (hv : VarintRep v body.length) (hm : Admits max body.length) :
    Fetch mode max (b1 :: (v ++ body)) r 1 (Packet.read mode max (b1 :: (v ++ body))).1 [] r := by
  have h := C14_frame_consumed mode max (b1 :: (v ++ body)) [] body.length
    ⟨b1, v, body, rfl, hv, rfl⟩ hm
  rw [List.append_nil] at h
  refine .done (Prod.ext rfl h) ?_
  rintro ⟨k, -, e⟩
  simp at e

theorem fetch_header {mode : StrMode} {max : Option Nat} {b1 : UInt8} {v body r : Bytes}
    (hv : VarintRep v body.length) (hm : Admits max body.length) (i : Nat) :
    ∀ w u, v = w ++ u → u.length = i → w ≠ [] →
    ∃ n, n ≤ i + 2 ∧ Fetch mode max (b1 :: w) (u ++ (body ++ r)) n
      (Packet.read mode max (b1 :: (v ++ body))).1 [] r := by
  induction i with
  | zero =>
    intro w u e hu _
    have := List.eq_nil_of_length_eq_zero hu
    subst this
    rw [List.append_nil] at e
    subst e
    by_cases hb : body = []
    · subst hb
      exact ⟨1, by omega, by simpa using fetch_frame (mode := mode) (b1 := b1) (r := r) hv hm⟩
    · refine ⟨1 + 1, by omega, .more (x := body) (k := body.length) ?_ rfl ?_⟩
      · refine (C19_unchanged_iff _ _ _ _).2 (.inr (.inr ⟨b1, v, body.length, [], by simp, hv, hm,
          List.length_pos_iff.2 hb, by simp⟩))
      · exact fetch_frame hv hm
  | succ i ih =>
    intro w u e hu hw
    rcases u with _ | ⟨x, u⟩
    · simp at hu
    · simp only [List.length_cons, Nat.add_right_cancel_iff] at hu
      obtain ⟨n, hn, h⟩ := ih (w ++ [x]) u (by simp [e]) hu (by simp)
      refine ⟨n + 1, by omega, .more (x := [x]) (s := u ++ (body ++ r)) ?_ rfl h⟩
      refine (C19_unchanged_iff _ _ _ _).2 (.inr (.inl ⟨b1, w, rfl, hw, ?_, rfl⟩))
      obtain ⟨init, lst, hvi, h3, hi, -, -⟩ := hv
      obtain ⟨c, hc⟩ : ∃ c, init = w ++ c := by
        obtain ⟨c, hc⟩ := List.prefix_of_prefix_length_le (l₁ := w) (l₂ := init) (l₃ := v)
          ⟨x :: u, e.symm⟩ ⟨[lst], hvi.symm⟩ (by
            have := congrArg List.length (e.symm.trans hvi)
            simp only [List.length_append, List.length_cons, List.length_nil] at this
            omega)
        exact ⟨c, hc.symm⟩
      subst hc
      rw [List.length_append] at h3
      exact ⟨by omega, fun y hy => hi y (by simp [hy])⟩

/-- C68: a receiver that fetches exactly the bytes asked for needs at most six calls and five fetches
for a frame, takes the frame and nothing behind it, and gets what reading the frame alone returns. -/
theorem C68_calls (mode : StrMode) (max : Option Nat) (f r : Bytes) (k : Nat) (hf : RemLen f k)
    (hm : Admits max k) :
    ∃ n, n ≤ 6 ∧ Fetch mode max [] (f ++ r) n (Packet.read mode max f).1 [] r ∧
      ∀ n' o b s, Fetch mode max [] (f ++ r) n' o b s →
        n' = n ∧ o = (Packet.read mode max f).1 ∧ b = [] ∧ s = r := by
  obtain ⟨b1, v, body, rfl, hv, rfl⟩ := hf
  have h4 := hv.length_le
  have h1 := hv.length_pos
  rcases v with _ | ⟨x, u⟩
  · simp at h1
  · obtain ⟨n, hn, h⟩ := fetch_header (mode := mode) (b1 := b1) (r := r) hv hm u.length [x] u rfl
      rfl (by simp)
    have := Fetch.more (mode := mode) (max := max) (b := []) (x := [b1, x]) (k := 2)
      ((C19_unchanged_iff _ _ _ _).2 (.inl ⟨by decide, rfl⟩)) rfl h
    simp only [List.length_cons] at h4
    have h' : Fetch mode max [] (b1 :: (x :: u ++ body) ++ r) (n + 1)
        (Packet.read mode max (b1 :: (x :: u ++ body))).1 [] r := by
      simpa using this
    refine ⟨n + 1, by omega, h', fun n' o b s h2 => ?_⟩
    obtain ⟨rfl, rfl, rfl, rfl⟩ := fetch_unique h' h2
    exact ⟨rfl, rfl, rfl, rfl⟩

/-- Six calls are needed for a remaining length in four bytes. -/
example : Fetch .utf8 none [] [0x40, 0x82, 0x80, 0x80, 0, 0, 7, 9] 6
    (.ok (.PubAck { pkid := 7, reason := .Success, properties := none })) [] [9] :=
  .more (x := [0x40, 0x82]) (k := 2) (by decide +kernel) rfl <|
  .more (x := [0x80]) (k := 1) (by decide +kernel) rfl <|
  .more (x := [0x80]) (k := 1) (by decide +kernel) rfl <|
  .more (x := [0]) (k := 1) (by decide +kernel) rfl <|
  .more (x := [0, 7]) (k := 2) (by decide +kernel) rfl <|
  .done (by decide +kernel) (by simp)

example : Holding .utf8 (some 2) (Careful 3) [0x40, 2, 0] :=
  .fetch (b := []) (b' := []) (x := [0x40, 2, 0]) (k := 2) .start (by decide +kernel)
    ⟨rfl, by decide⟩

end Props
