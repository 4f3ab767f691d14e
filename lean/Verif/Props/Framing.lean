import Verif.Proofs.Drain
import Verif.Proofs.Exact
import Verif.Props.Samples
/-
C09, C13-C18, C35: variable byte integers, frames and streams.
-/
namespace Props

open Mqtt Spec

/-! ### C09 -/

/-- C09: a length up to 268435455 is written, behind whatever is in the buffer, as one to four
bytes `w`; these denote the number, the decoder of the library gets the number and the count of
bytes back whatever follows, and nothing the decoder maps to that number is shorter. -/
theorem C09_varint_round_trip (n : Nat) (hn : n ≤ 268435455) :
    ∃ w, (∀ b, write_remaining_length n b = (.ok w.length, b ++ w)) ∧
      1 ≤ w.length ∧ w.length ≤ 4 ∧ VarintRep w n ∧
      (∀ r, length (w ++ r) = .ok (w.length, n)) ∧
      (∀ b k, length b = .ok (k, n) → w.length ≤ k) := by
  have hrep := varint_rep hn
  refine ⟨varint n, write_remaining_length_emits hn, varint_length_pos n,
    varint_length_le (k := 3) (by omega), hrep, length_rep hrep, ?_⟩
  intro b k hb
  rcases varint_trichotomy b with ⟨w, m, r, rfl, hw⟩ | ⟨h1, h2⟩ | ⟨w, r, rfl, h1, h2⟩
  · rw [length_rep hw r] at hb
    simp only [Out.ok.injEq, Prod.mk.injEq] at hb
    obtain ⟨rfl, rfl⟩ := hb
    exact varint_minimal hw
  · rw [length_short h1 h2] at hb; simp at hb
  · rw [length_long r h1 h2] at hb; simp at hb

/-- C09: larger lengths are refused and nothing is written. -/
theorem C09_varint_too_large (n : Nat) (hn : 268435455 < n) (b : Bytes) :
    write_remaining_length n b = (.err .PayloadTooLong, b) := by
  simpa using write_remaining_length_err hn b

/-- C09: the decoder of lengths: it accepts exactly one to four bytes ending in the first byte
below 128; it asks for more bytes exactly if fewer than four bytes, all from 128, are there; and
it refuses everything else, that is four bytes from 128. -/
theorem C09_varint_decoder (b : Bytes) :
    (∃ w n r, b = w ++ r ∧ VarintRep w n ∧ length b = .ok (w.length, n)) ∨
    (b.length ≤ 3 ∧ (∀ x ∈ b, 128 ≤ x.toNat) ∧ length b = .err (.InsufficientBytes 1)) ∨
    (∃ w r, b = w ++ r ∧ w.length = 4 ∧ (∀ x ∈ w, 128 ≤ x.toNat) ∧
      length b = .err .MalformedRemainingLength) := by
  rcases varint_trichotomy b with ⟨w, m, r, rfl, hw⟩ | ⟨h1, h2⟩ | ⟨w, r, rfl, h1, h2⟩
  · exact .inl ⟨w, m, r, rfl, hw, length_rep hw r⟩
  · exact .inr (.inl ⟨h1, h2, length_short h1 h2⟩)
  · exact .inr (.inr ⟨w, r, rfl, h1, h2, length_long r h1 h2⟩)

example : write_remaining_length 16384 [9] = (.ok 3, [9, 0x80, 0x80, 0x01]) := by decide +kernel
example : length [0xFF, 0xFF, 0xFF, 0x7F, 1] = .ok (4, 268435455) := by decide +kernel
example : length [0xFF, 0xFF, 0xFF, 0xFF, 1] = .err .MalformedRemainingLength := by decide +kernel

/-! ### C13 -/

/-- C13: reading returns a packet or an error, for every stream and limit; it neither panics nor
loops. -/
theorem C13_read_total (mode : StrMode) (max : Option Nat) (b : Bytes) :
    (∃ p, (Packet.read mode max b).1 = .ok p) ∨ (∃ e, (Packet.read mode max b).1 = .err e) := by
  cases read_cases mode max b with
  | tooShort _ hr => exact .inr ⟨_, by rw [hr]⟩
  | openHeader _ _ _ _ _ _ hr => exact .inr ⟨_, by rw [hr]⟩
  | badHeader _ _ _ _ _ _ hr => exact .inr ⟨_, by rw [hr]⟩
  | overLimit _ _ _ _ _ _ _ _ _ hr => exact .inr ⟨_, by rw [hr]⟩
  | openBody _ _ _ _ _ _ _ _ hr => exact .inr ⟨_, by rw [hr]⟩
  | frame b1 v bd _ _ _ _ hr =>
    obtain ⟨h1, h2⟩ := frameOut_total (mode := mode) b1 v bd
    rw [hr]
    show (∃ p, frameOut mode b1 v bd = .ok p) ∨ (∃ e, frameOut mode b1 v bd = .err e)
    cases ho : frameOut mode b1 v bd with
    | ok p => exact .inl ⟨p, rfl⟩
    | err e => exact .inr ⟨e, rfl⟩
    | panic => exact absurd ho h1
    | diverge => exact absurd ho h2

/-! ### C14, C15 -/

/-- C14: if the stream starts with a complete frame that the limit admits, exactly this frame is
removed, whatever the result. -/
theorem C14_frame_consumed (mode : StrMode) (max : Option Nat) (f r : Bytes) (n : Nat)
    (hf : RemLen f n) (hm : Admits max n) : (Packet.read mode max (f ++ r)).2 = r := by
  obtain ⟨o, h⟩ := read_admitted (mode := mode) hf hm
  rw [h]

/-- C14: otherwise the call fails and the stream is untouched. -/
theorem C14_nothing_consumed (mode : StrMode) (max : Option Nat) (b : Bytes)
    (h : ¬ ∃ f n r, b = f ++ r ∧ RemLen f n ∧ Admits max n) :
    ∃ e, Packet.read mode max b = (.err e, b) := by
  rcases read_dichotomy mode max b with ⟨e, he, -⟩ | ⟨f, n, r, o, rfl, hf, hm, -⟩
  · exact ⟨e, he⟩
  · exact absurd ⟨f, n, r, rfl, hf, hm⟩ h

example : RemLen [0x40, 0x02, 0, 1] 2 := ⟨0x40, [2], [0, 1], rfl,
  ⟨[], 2, rfl, by decide, by decide, by decide, rfl⟩, rfl⟩
example : Packet.read .utf8 none [0x40, 0x03, 0, 1, 7, 9] =
    (.err (.InvalidConnectReturnCode 7), [9]) := by decide +kernel
example : Packet.read .utf8 none [0x40, 0x03, 0, 1] = (.err (.InsufficientBytes 1),
    [0x40, 0x03, 0, 1]) := by decide +kernel

/-- C15: bytes after a complete frame do not influence the result, and they are not touched; if
the limit does not admit the frame, nothing is touched at all. -/
theorem C15_read_local (mode : StrMode) (max : Option Nat) (f r : Bytes) (hf : IsFrame f) :
    (Packet.read mode max (f ++ r)).1 = (Packet.read mode max f).1 ∧
    (Packet.read mode max (f ++ r)).2 = (Packet.read mode max f).2 ++ r := by
  obtain ⟨b1, v, bd, rfl, hv⟩ := hf
  by_cases hm : OverLimit max bd.length
  · obtain ⟨m, rfl, hlt⟩ := hm
    have key : ∀ c, Packet.read mode (some m) (b1 :: (v ++ c)) =
        (.err (.PayloadSizeLimitExceeded bd.length m), b1 :: (v ++ c)) := fun c =>
      read_check_err (check_over (parse_rep c hv) hlt)
    have h1 := key bd
    have h2 := key (bd ++ r)
    rw [h1, show b1 :: (v ++ bd) ++ r = b1 :: (v ++ (bd ++ r)) by simp, h2]
    simp
  · have h1 := read_frame (mode := mode) (b1 := b1) hv hm []
    have h2 := read_frame (mode := mode) (b1 := b1) hv hm r
    rw [List.append_nil] at h1
    rw [h1, show b1 :: (v ++ bd) ++ r = b1 :: (v ++ (bd ++ r)) by simp, h2]
    simp

/-! ### C16 -/

/-- C16: on a proper prefix `p` of a complete frame that the limit admits, `InsufficientBytes(k)`
is reported, with `k` at least 1 and at most the number of missing bytes, and the buffer is
untouched; and `k` is exact if the length field is within the prefix. -/
theorem C16_incomplete (mode : StrMode) (max : Option Nat) (b1 : UInt8) (v body p q : Bytes)
    (hv : VarintRep v body.length) (hm : Admits max body.length)
    (he : b1 :: (v ++ body) = p ++ q) (hq : q ≠ []) :
    ∃ k, Packet.read mode max p = (.err (.InsufficientBytes k), p) ∧ 1 ≤ k ∧ k ≤ q.length ∧
      (1 + v.length ≤ p.length → k = q.length) := by
  have hq1 : 1 ≤ q.length := by
    rcases q with _ | ⟨x, q⟩
    · exact absurd rfl hq
    · simp
  have hlen := congrArg List.length he
  simp only [List.length_cons, List.length_append] at hlen
  have hv1 := hv.length_pos
  by_cases hp : 1 + v.length ≤ p.length
  · -- the header is complete
    obtain ⟨c, rfl⟩ : ∃ c, p = b1 :: (v ++ c) := by
      rcases p with _ | ⟨x, p⟩
      · simp at hp
      simp only [List.cons_append, List.cons.injEq] at he
      obtain ⟨rfl, he⟩ := he
      obtain ⟨c, hc⟩ := List.prefix_of_prefix_length_le (l₁ := v) (l₂ := p)
        (l₃ := v ++ body) (List.prefix_append _ _) ⟨q, he.symm⟩ (by simp at hp; omega)
      exact ⟨c, by rw [hc]⟩
    have hcl : c.length < body.length := by simp at hlen hp; omega
    have hch := check_within (b := b1 :: (v ++ c)) (max := max) (parse_rep c hv)
      (by show ¬ OverLimit max body.length; exact not_overLimit.2 hm)
    refine ⟨body.length - c.length, ?_, by omega, ?_, fun _ => ?_⟩
    · have hfl : (FixedHeader.new b1 v.length body.length).frame_length =
          1 + v.length + body.length := by
        simp [FixedHeader.new, FixedHeader.frame_length]; try omega
      rw [hfl, if_pos (by simp; omega)] at hch
      have := read_check_err (mode := mode) hch
      rw [this]
      have : 1 + v.length + body.length - (b1 :: (v ++ c)).length = body.length - c.length := by
        simp; omega
      rw [this]
    · simp at hlen; omega
    · simp at hlen; omega
  · -- the header is not complete
    by_cases h2 : p.length < 2
    · refine ⟨2 - p.length, read_check_err (check_err (parse_short h2)), by omega, by omega,
        fun h => absurd h hp⟩
    · rcases p with _ | ⟨x, p⟩
      · simp at h2
      simp only [List.cons_append, List.cons.injEq] at he
      obtain ⟨rfl, he⟩ := he
      simp only [List.length_cons] at h2 hp
      obtain ⟨init, lst, hvi, h3, hi, -, -⟩ := hv
      obtain ⟨c, hc⟩ := List.prefix_of_prefix_length_le (l₁ := p) (l₂ := init)
        (l₃ := v ++ body) ⟨q, he.symm⟩ (by rw [hvi, List.append_assoc]; exact List.prefix_append _ _)
        (by rw [hvi] at hp; simp at hp; omega)
      have hpi : ∀ y ∈ p, 128 ≤ y.toNat := fun y hy => hi y (by rw [← hc]; simp [hy])
      have hp3 : p.length ≤ 3 := by
        have := congrArg List.length hc
        simp at this; omega
      refine ⟨1, read_check_err (check_err (parse_cont (by omega) hp3 hpi)), by omega, hq1,
        fun h => absurd h (by simp; omega)⟩

example : Packet.read .utf8 none [0x30, 0x80] = (.err (.InsufficientBytes 1), [0x30, 0x80]) := by
  decide +kernel
example : Packet.read .utf8 none [0x30, 0x80, 0x01, 7] =
    (.err (.InsufficientBytes 127), [0x30, 0x80, 0x01, 7]) := by decide +kernel

/-! ### C17 -/

/-- C17: draining a buffer always comes to an end and has only one outcome. -/
theorem C17_drain_unique (mode : StrMode) (max : Option Nat) (b : Bytes) :
    ∃ os r, Drains mode max b os r ∧ ∀ os' r', Drains mode max b os' r' → os' = os ∧ r' = r := by
  obtain ⟨os, r, h⟩ := drains_total mode max b
  exact ⟨os, r, h, fun os' r' h' => drains_det h' h⟩

/-- C17: feeding a stream in chunks (`Feeds`) always comes to an end, and the results and the
leftover are those of feeding the stream at once. -/
theorem C17_chunks (mode : StrMode) (max : Option Nat) (chunks : List Bytes) :
    (∃ os r, Feeds mode max [] chunks os r) ∧
    ∀ os r, Feeds mode max [] chunks os r → Drains mode max chunks.flatten os r :=
  ⟨feeds_total mode max [] chunks, fun _ _ h => by
    simpa using feeds_drains h (drains_nil mode max)⟩

/-- C17: two divisions of one stream into chunks give the same results and the same leftover. -/
theorem C17_chunking_independent (mode : StrMode) (max : Option Nat) (cs cs' : List Bytes)
    (os os' : List (Out Packet)) (r r' : Bytes) (h : Feeds mode max [] cs os r)
    (h' : Feeds mode max [] cs' os' r') (he : cs.flatten = cs'.flatten) : os = os' ∧ r = r' :=
  drains_det ((C17_chunks mode max cs).2 os r h) (he ▸ (C17_chunks mode max cs').2 os' r' h')

/-- C17: an error that is reported without consuming anything, other than `InsufficientBytes`, is
final: more bytes do not change it. -/
theorem C17_final_error (mode : StrMode) (max : Option Nat) (b c : Bytes) (e : Err)
    (h : Packet.read mode max b = (.err e, b)) (he : ∀ k, e ≠ .InsufficientBytes k) :
    Packet.read mode max (b ++ c) = (.err e, b ++ c) := by
  cases read_cases mode max b with
  | tooShort _ hr => rw [hr] at h; simp at h; exact absurd h.symm (he _)
  | openHeader _ _ _ _ _ _ hr => rw [hr] at h; simp at h; exact absurd h.symm (he _)
  | openBody _ _ _ _ _ _ _ _ hr => rw [hr] at h; simp at h; exact absurd h.symm (he _)
  | badHeader b1 w r hb h4 hw hr =>
    rw [hr] at h; simp only [Prod.mk.injEq, Out.err.injEq, and_true] at h
    subst h hb
    have := read_check_err (mode := mode) (max := max) (check_err (max := max)
      (parse_long (b1 := b1) (r ++ c) h4 hw))
    simpa using this
  | overLimit b1 v r n m hb hv hm hn hr =>
    rw [hr] at h; simp only [Prod.mk.injEq, Out.err.injEq, and_true] at h
    subst h hb hm
    have := read_check_err (mode := mode) (check_over (b := b1 :: (v ++ (r ++ c))) (m := m)
      (parse_rep (r ++ c) hv) hn)
    rw [show b1 :: (v ++ r) ++ c = b1 :: (v ++ (r ++ c)) by simp]
    exact this
  | frame b1 v bd r hb hv hm hr =>
    rw [hr] at h; simp only [Prod.mk.injEq] at h
    have := congrArg List.length (h.2.trans hb)
    simp at this; omega

example : Drains .utf8 none [0xC0, 0, 0x40, 3, 0, 1, 7, 0xD0]
    [.ok .PingReq, .err (.InvalidConnectReturnCode 7)] [0xD0] :=
  .step (b1 := [0x40, 3, 0, 1, 7, 0xD0]) (by decide +kernel) (by decide)
    (.step (b1 := [0xD0]) (by decide +kernel) (by decide) (.stop (by decide +kernel)))

/-! ### C18 -/

/-- C18: as soon as the header announces more than the limit, and for every continuation, the
frame is refused with the announced length and the limit, and nothing is consumed. -/
theorem C18_over_limit (mode : StrMode) (m n : Nat) (b1 : UInt8) (v r : Bytes)
    (hv : VarintRep v n) (hn : m < n) :
    Packet.read mode (some m) (b1 :: (v ++ r)) =
      (.err (.PayloadSizeLimitExceeded n m), b1 :: (v ++ r)) :=
  read_check_err (check_over (parse_rep r hv) hn)

/-- C18: on every stream whose header, if complete, announces at most the limit, reading is the
same as without limit. -/
theorem C18_within_limit (mode : StrMode) (m : Nat) (b : Bytes)
    (h : ∀ b1 v n r, b = b1 :: (v ++ r) → VarintRep v n → n ≤ m) :
    Packet.read mode (some m) b = Packet.read mode none b := by
  have hov : ∀ n, ¬ OverLimit none n := by rintro n ⟨m, h, -⟩; cases h
  cases read_cases mode (some m) b with
  | tooShort hb hr => rw [hr, read_check_err (check_err (parse_short hb))]
  | openHeader b1 w hb h1 h3 hw hr =>
    rw [hr]; subst hb; rw [read_check_err (check_err (parse_cont h1 h3 hw))]
  | badHeader b1 w r hb h4 hw hr =>
    rw [hr]; subst hb; rw [read_check_err (check_err (parse_long r h4 hw))]
  | overLimit b1 v r n m' hb hv hm hn hr =>
    cases hm
    have := h b1 v n r hb hv
    omega
  | openBody b1 v r n hb hv hm hn hr =>
    rw [hr]; subst hb
    have hch := check_within (b := b1 :: (v ++ r)) (max := none) (parse_rep r hv) (hov _)
    have hfl : (FixedHeader.new b1 v.length n).frame_length = 1 + v.length + n := by
      simp [FixedHeader.new, FixedHeader.frame_length]; try omega
    rw [hfl, if_pos (by simp; omega)] at hch
    rw [read_check_err hch]
    have : 1 + v.length + n - (b1 :: (v ++ r)).length = n - r.length := by simp; omega
    rw [this]
  | frame b1 v bd r hb hv hm hr =>
    rw [hr, hb, read_frame hv (hov _)]

example : Packet.read .utf8 (some 3) [0x40, 0x04] =
    (.err (.PayloadSizeLimitExceeded 4 3), [0x40, 0x04]) := by decide +kernel
example : Packet.read .utf8 (some 3) [0x40, 0x03, 0, 1, 0] =
    (.ok (.PubAck { pkid := 1, reason := .Success, properties := none }), []) := by decide +kernel

end Props
