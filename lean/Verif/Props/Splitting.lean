import Verif.Spec.Splitting
import Verif.Props.Isolation
import Verif.Props.Typed
import Verif.Props.Dispatch
/-
C69: frames can be split off with `check` and decoded later, in any order, or passed on undecoded.
-/
namespace Props

open Mqtt Spec

theorem splits_exists (max : Option Nat) (n : Nat) : ∀ b : Bytes, b.length ≤ n →
    ∃ fs r, Splits max b fs r := by
  induction n with
  | zero =>
    intro b hb
    have := List.eq_nil_of_length_eq_zero (Nat.le_zero.1 hb)
    subst this
    refine ⟨[], [], .stop ((C45_check_err [] max (.InsufficientBytes 2)).2 (.inl ⟨by decide, rfl⟩))⟩
  | succ n ih =>
    intro b hb
    rcases C45_check_then_read .utf8 b max with ⟨e, he, -⟩ | ⟨fh, hf, hl, -, -⟩
    · exact ⟨[], b, .stop he⟩
    · obtain ⟨b1, v, body, rest, rfl, hv, -, -, hlen⟩ := (C45_check_ok b max fh).1 hf
      obtain ⟨fs, r, h⟩ := ih ((b1 :: (v ++ (body ++ rest))).drop fh.frame_length) (by
        rw [List.length_drop, hlen]
        simp only [List.length_cons, List.length_append] at hb ⊢
        omega)
      exact ⟨_, r, .step hf h⟩

theorem splits_unique {max : Option Nat} {b r r' : Bytes} {fs fs' : List (FixedHeader × Bytes)}
    (h : Splits max b fs r) (h' : Splits max b fs' r') : fs = fs' ∧ r = r' := by
  induction h generalizing fs' r' with
  | stop h =>
    cases h' with
    | stop _ => exact ⟨rfl, rfl⟩
    | step h2 _ => rw [h] at h2; cases h2
  | step h _ ih =>
    cases h' with
    | stop h2 => rw [h] at h2; cases h2
    | step h2 h3 =>
      rw [h] at h2
      cases h2
      obtain ⟨rfl, rfl⟩ := ih h3
      exact ⟨rfl, rfl⟩

/-- C69: splitting always comes to an end and has one outcome. -/
theorem C69_split (max : Option Nat) (b : Bytes) :
    ∃ fs r, Splits max b fs r ∧ ∀ fs' r', Splits max b fs' r' → fs' = fs ∧ r' = r := by
  obtain ⟨fs, r, h⟩ := splits_exists max b.length b (Nat.le_refl _)
  refine ⟨fs, r, h, fun fs' r' h' => ?_⟩
  obtain ⟨rfl, rfl⟩ := splits_unique h h'
  exact ⟨rfl, rfl⟩

/-- C69: no byte is lost or changed; each piece is a complete admissible frame, and its header tells
its length; what is left does not begin with such a frame. -/
theorem C69_lossless (max : Option Nat) (b r : Bytes) (fs : List (FixedHeader × Bytes))
    (h : Splits max b fs r) :
    b = (fs.map (·.2)).flatten ++ r ∧
    (∀ x ∈ fs, x.1.frame_length = x.2.length ∧ ∃ n, RemLen x.2 n ∧ Admits max n) ∧
    ¬ ∃ f n s, r = f ++ s ∧ RemLen f n ∧ Admits max n := by
  induction h with
  | @stop b e h =>
    refine ⟨rfl, by simp, ?_⟩
    rintro ⟨f, n, s, rfl, ⟨b1, v, body, rfl, hv, rfl⟩, hm⟩
    have := (C45_check_ok (b1 :: (v ++ body) ++ s) max (FixedHeader.new b1 v.length body.length)).2
      ⟨b1, v, body, s, by simp, hv, hm, rfl, by
        simp [FixedHeader.new, FixedHeader.frame_length]; omega⟩
    rw [h] at this
    cases this
  | @step b r fh fs h _ ih =>
    obtain ⟨h1, h2, h3⟩ := ih
    obtain ⟨b1, v, body, rest, rfl, hv, hm, -, hlen⟩ := (C45_check_ok b max fh).1 h
    have ht : (b1 :: (v ++ (body ++ rest))).take fh.frame_length = b1 :: (v ++ body) := by
      rw [hlen, show b1 :: (v ++ (body ++ rest)) = b1 :: (v ++ body) ++ rest by simp,
        List.take_left]
    refine ⟨?_, ?_, h3⟩
    · rw [List.map_cons, List.flatten_cons, List.append_assoc, ← h1, List.take_append_drop]
    · rw [ht]
      intro x hx
      rcases List.mem_cons.1 hx with rfl | hx
      · exact ⟨hlen, body.length, ⟨b1, v, body, rfl, hv, rfl⟩, hm⟩
      · exact h2 x hx

/-- C69: decoding the pieces one by one, each by itself and without a limit, gives exactly what
draining the buffer with `Packet::read` would have given, and leaves the same rest. -/
theorem C69_same (mode : StrMode) (max : Option Nat) (b r r' : Bytes)
    (fs : List (FixedHeader × Bytes)) (os : List (Out Packet)) (h : Splits max b fs r) :
    Drains mode max b os r' ↔ os = fs.map (fun x => (Packet.read mode none x.2).1) ∧ r' = r := by
  obtain ⟨h1, h2, h3⟩ := C69_lossless max b r fs h
  have hd : Drains mode max b (fs.map fun x => (Packet.read mode none x.2).1) r := by
    rw [C61_frames_iff]
    refine ⟨fs.map (·.2), h1, ?_, ?_, h3⟩
    · intro f hf
      obtain ⟨x, hx, rfl⟩ := List.mem_map.1 hf
      exact (h2 x hx).2
    · rw [List.map_map]
      refine List.map_congr_left fun x hx => ?_
      obtain ⟨-, n, ⟨b1, v, body, hx2, hv, rfl⟩, hm⟩ := h2 x hx
      simp only [Function.comp_apply]
      rcases C45_check_then_read mode x.2 max with ⟨e, he, -⟩ | ⟨fh, hf, hl, -, hr⟩
      · have := (C45_check_ok x.2 max (FixedHeader.new b1 v.length body.length)).2
          ⟨b1, v, body, [], by simp [hx2], hv, hm, rfl, by
            simp [FixedHeader.new, FixedHeader.frame_length]; omega⟩
        rw [he] at this
        cases this
      · have hfl : x.2.take fh.frame_length = x.2 := by
          obtain ⟨b1', v', body', rest', hx3, hv', hm', hfh, hlen⟩ := (C45_check_ok x.2 max fh).1 hf
          have hfh' : check x.2 max = .ok (FixedHeader.new b1 v.length body.length) :=
            (C45_check_ok x.2 max _).2 ⟨b1, v, body, [], by simp [hx2], hv, hm, rfl, by
              simp [FixedHeader.new, FixedHeader.frame_length]; omega⟩
          rw [hf] at hfh'
          cases hfh'
          rw [List.take_of_length_le]
          rw [hx2]
          simp [FixedHeader.new, FixedHeader.frame_length]
          omega
        rw [hr, hfl]
  obtain ⟨os', r'', -, hu⟩ := C17_drain_unique mode max b
  constructor
  · intro h'
    obtain ⟨rfl, rfl⟩ := hu _ _ hd
    exact hu _ _ h'
  · rintro ⟨rfl, rfl⟩
    exact hd

/-- C69: the header tells the kind of packet before decoding: the packet that its frame decodes to is
of this kind; and if it tells none, decoding fails with the same error. -/
theorem C69_type (mode : StrMode) (max : Option Nat) (b r : Bytes)
    (fs : List (FixedHeader × Bytes)) (h : Splits max b fs r) (x : FixedHeader × Bytes)
    (hx : x ∈ fs) :
    (∀ p r', Packet.read mode none x.2 = (.ok p, r') →
      ∃ t, x.1.packet_type = .ok t ∧ t.toU8.toNat = typeNum p) ∧
    (∀ e, x.1.packet_type = .err e → Packet.read mode none x.2 = (.err e, [])) := by
  have key : ∃ b1 v body, x.2 = b1 :: (v ++ body) ∧ VarintRep v body.length ∧
      x.1 = FixedHeader.new b1 v.length body.length := by
    clear mode
    induction h with
    | stop _ => simp at hx
    | @step b r fh fs h _ ih =>
      rcases List.mem_cons.1 hx with rfl | hx
      · obtain ⟨b1, v, body, rest, rfl, hv, hm, hfh, hlen⟩ := (C45_check_ok b max fh).1 h
        refine ⟨b1, v, body, ?_, hv, hfh⟩
        show List.take _ _ = _
        rw [hlen, show b1 :: (v ++ (body ++ rest)) = b1 :: (v ++ body) ++ rest by simp,
          List.take_left]
      · exact ih hx
  obtain ⟨b1, v, body, hx2, hv, hfh⟩ := key
  obtain ⟨fh, f⟩ := x
  simp only at hx2 hfh
  subst hx2 hfh
  have hb1 : (FixedHeader.new b1 v.length body.length).byte1 = b1 := rfl
  have inv := C35_invalid_type mode none b1 v body [] hv (by intro m h; cases h)
  rw [List.append_nil] at inv
  refine ⟨fun p r' hr => ?_, fun e he => ?_⟩
  · have ht := C35_type mode none b1 _ r' p hr
    rcases packet_type_cases (FixedHeader.new b1 v.length body.length) with ⟨t, h1⟩ | ⟨h0, -⟩
    · refine ⟨t, h1, ?_⟩
      have := packet_type_ok.1 h1
      rw [hb1] at this
      rw [ht, this]
    · rw [hb1] at h0
      have := (inv h0).1
      simp only at hr
      rw [this] at hr
      cases hr
  · rcases packet_type_cases (FixedHeader.new b1 v.length body.length) with ⟨t, h1⟩ | ⟨h0, h1⟩
    · simp only at he; rw [h1] at he; cases he
    · rw [hb1] at h0
      simp only at he ⊢
      rw [(inv h0).1]
      rw [packet_type_err (fh := FixedHeader.new b1 v.length body.length) h0] at he
      cases he
      rfl

theorem splits_append {max : Option Nat} {b c r1 r2 : Bytes} {fs1 fs2 : List (FixedHeader × Bytes)}
    (h : Splits max b fs1 r1) (h2 : Splits max (r1 ++ c) fs2 r2) :
    Splits max (b ++ c) (fs1 ++ fs2) r2 := by
  induction h with
  | stop _ => exact h2
  | @step b r fh fs h _ ih =>
    obtain ⟨b1, v, body, rest, rfl, hv, hm, hfh, hlen⟩ := (C45_check_ok b max fh).1 h
    have hc : check (b1 :: (v ++ (body ++ rest)) ++ c) max = .ok fh :=
      (C45_check_ok _ max fh).2 ⟨b1, v, body, rest ++ c, by simp, hv, hm, hfh, hlen⟩
    have hle : fh.frame_length ≤ (b1 :: (v ++ (body ++ rest))).length := by
      rw [hlen]; simp
    have := ih h2
    rw [← List.drop_append_of_le_length hle] at this
    have := Splits.step hc this
    rw [List.take_append_of_le_length hle] at this
    exact this

/-- C69: how the bytes are divided into chunks does not matter: splitting after each chunk gives the
same frames and the same rest as splitting the whole stream. -/
theorem C69_chunks (max : Option Nat) (cs : List Bytes) (fs : List (FixedHeader × Bytes))
    (r : Bytes) : SplitFeeds max [] cs fs r ↔
      Splits max cs.flatten fs r := by
  have fwd : ∀ {b0 b cs fs0 fs r}, Splits max b0 fs0 b → SplitFeeds max b cs fs r →
      Splits max (b0 ++ cs.flatten) (fs0 ++ fs) r := by
    intro b0 b cs fs0 fs r h0 h
    induction h generalizing b0 fs0 with
    | nil b => simpa using h0
    | @cons b c b1 b2 cs fs1 fs2 h1 _ ih =>
      have := ih (splits_append h0 h1)
      simpa using this
  have ex : ∀ (cs : List Bytes) (b : Bytes), ∃ fs r, SplitFeeds max b cs fs r := by
    intro cs
    induction cs with
    | nil => exact fun b => ⟨[], b, .nil b⟩
    | cons c cs ih =>
      intro b
      obtain ⟨fs1, b1, h1⟩ := splits_exists max _ (b ++ c) (Nat.le_refl _)
      obtain ⟨fs2, b2, h2⟩ := ih b1
      exact ⟨_, _, .cons h1 h2⟩
  have h0 : Splits max [] [] [] :=
    .stop ((C45_check_err [] max (.InsufficientBytes 2)).2 (.inl ⟨by decide, rfl⟩))
  constructor
  · intro h
    simpa using fwd h0 h
  · intro h
    obtain ⟨fs', r', h'⟩ := ex cs []
    obtain ⟨rfl, rfl⟩ := splits_unique h (by simpa using fwd h0 h')
    exact h'

/-- A PINGREQ, a frame with reason code 7, which PUBACK does not know, and an incomplete one. -/
example : Splits (some 9) [0xC0, 0, 0x40, 3, 0, 1, 7, 0x30, 4, 0]
    [(FixedHeader.new 0xC0 1 0, [0xC0, 0]), (FixedHeader.new 0x40 1 3, [0x40, 3, 0, 1, 7])]
    [0x30, 4, 0] :=
  .step (fh := FixedHeader.new 0xC0 1 0) (by decide +kernel)
    (.step (fh := FixedHeader.new 0x40 1 3) (by decide +kernel)
      (.stop (e := .InsufficientBytes 3) (by decide +kernel)))

end Props
