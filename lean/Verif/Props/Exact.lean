import Verif.Proofs.Cut
import Verif.Props.Diagnose
import Verif.Props.Writing
import Verif.Props.Layout
import Verif.Props.Fields
import Verif.Props.Dispatch
import Verif.Props.Framing
/-
C19, C20, C21, C38: the exact extent of the exceptions.
-/
namespace Props

open Mqtt Spec

/-! ### C19 -/

/-- C19, exact: `InsufficientBytes(k)` comes with a stream that has changed exactly if the stream
starts with a complete admissible frame whose body breaks off in a property section; then `k = 1`
and the frame is gone. -/
theorem C19_consumed_iff (mode : StrMode) (max : Option Nat) (b b' : Bytes) (k : Nat) :
    (Packet.read mode max b = (.err (.InsufficientBytes k), b') ∧ b' ≠ b) ↔
    k = 1 ∧ ∃ b1 v body, b = b1 :: (v ++ (body ++ b')) ∧ VarintRep v body.length ∧
      Admits max body.length ∧ FrameCut mode b1.toNat body := by
  rw [C44_exact_error]
  simp only [frameErr_cut]
  constructor
  · rintro ⟨⟨h, -⟩ | ⟨b1, v, body, hb, hv, hm, h1, hc⟩, hne⟩
    · exact absurd h hne
    · exact ⟨h1, b1, v, body, hb, hv, hm, hc⟩
  · rintro ⟨h1, b1, v, body, hb, hv, hm, hc⟩
    refine ⟨.inr ⟨b1, v, body, hb, hv, hm, h1, hc⟩, fun h => ?_⟩
    have := congrArg List.length (h.trans hb)
    simp at this
    omega

/-- C19, exact: `InsufficientBytes(k)` comes with an unchanged stream exactly if the fixed header is
still incomplete, or it is complete and admissible and `k` bytes of the body are missing. -/
theorem C19_unchanged_iff (mode : StrMode) (max : Option Nat) (b : Bytes) (k : Nat) :
    Packet.read mode max b = (.err (.InsufficientBytes k), b) ↔
    (b.length < 2 ∧ k = 2 - b.length) ∨
    (∃ b1 w, b = b1 :: w ∧ w ≠ [] ∧ Cut w ∧ k = 1) ∨
    (∃ b1 v n s, b = b1 :: (v ++ s) ∧ VarintRep v n ∧ Admits max n ∧ s.length < n ∧
      k = n - s.length) := by
  rw [C44_exact_error]
  constructor
  · rintro (⟨-, ⟨h, hk⟩ | ⟨b1, w, hb, hw, h⟩ | ⟨b1, v, n, s, hb, hv, ⟨m, -, -, h⟩ | ⟨hm, hs, h⟩⟩⟩ |
      ⟨b1, v, body, hb, -⟩)
    · exact .inl ⟨h, Err.InsufficientBytes.inj hk⟩
    · rw [varErr_cut] at h
      exact .inr (.inl ⟨b1, w, hb, hw, h.2, h.1⟩)
    · simp at h
    · exact .inr (.inr ⟨b1, v, n, s, hb, hv, hm, hs, Err.InsufficientBytes.inj h⟩)
    · have := congrArg List.length hb
      simp at this
      omega
  · rintro (⟨h, rfl⟩ | ⟨b1, w, hb, hw, h, rfl⟩ | ⟨b1, v, n, s, hb, hv, hm, hs, rfl⟩)
    · exact .inl ⟨rfl, .inl ⟨h, rfl⟩⟩
    · exact .inl ⟨rfl, .inr (.inl ⟨b1, w, hb, hw, varErr_cut.2 ⟨rfl, h⟩⟩)⟩
    · exact .inl ⟨rfl, .inr (.inr ⟨b1, v, n, s, hb, hv, .inr ⟨hm, hs, rfl⟩⟩)⟩

/-- A SUBSCRIBE whose subscription identifier breaks off, in a section whose length is not
reached. -/
example : FrameCut .utf8 0x82 [0, 1, 3, 0x0B, 0x80] :=
  ⟨1, [3, 0x0B, 0x80], rfl, .inr ⟨[3], 3, [], [], 0, [0x80], rfl, varintRep_small 3 (by decide),
    .nil 0, by decide, by simp, by decide, by decide, by decide⟩⟩

example : Packet.read .utf8 none [0x82, 5, 0, 1, 3, 0x0B, 0x80, 0xC0] =
    (.err (.InsufficientBytes 1), [0xC0]) := by decide +kernel

/-- A CONNECT that breaks off in the length of the will properties. -/
example : Packet.read .utf8 none
    [0x10, 15, 0, 4, 0x4D, 0x51, 0x54, 0x54, 5, 0x04, 0, 60, 0, 0, 1, 0x63, 0x80, 0xC0] =
    (.err (.InsufficientBytes 1), [0xC0]) := by decide +kernel

/-! ### C20, C21 -/

/-- C20, exact: `write` returns an error exactly for the packets that are not encodable, except a
CONNACK with an MQTT 3 return code and a body that is not too long. -/
theorem C20_err_iff (p : Packet) (b : Bytes) :
    (∃ e b', p.write b = (.err e, b')) ↔
      ¬ Encodable p ∧ ¬ (Legacy p ∧ (body p).length ≤ maxVarint) := by
  obtain ⟨hp, hd⟩ := C22_panic_iff p b
  rw [← C20_ok_iff p b, ← hp]
  revert hd
  clear hp
  rcases p.write b with ⟨o, b'⟩
  cases o <;> simp

/-- C21, exact: a refused packet always leaves at least its first byte in the buffer, so C21 fails
for every refused packet. -/
theorem C21_never (p : Packet) (b b' : Bytes) (e : Err) (h : p.write b = (.err e, b')) :
    ∃ w, b' = b ++ byte1 p :: w := by
  obtain ⟨L, x, R, w, h1, h2, h3, rfl⟩ := (C49_failed p b b' e).1 h
  rcases L with _ | ⟨y, L⟩
  · simp only [layout, List.nil_append, List.cons.injEq] at h1
    rw [← h1.1] at h3
    simp [Piece.written] at h3
  · simp only [layout, List.cons_append, List.cons.injEq] at h1
    obtain ⟨rfl, -⟩ := h1
    obtain ⟨ws, h2, rfl⟩ := h2
    rcases ws with _ | ⟨w0, ws⟩
    · simp at h2
    · simp only [List.map_cons, List.cons.injEq, Piece.written, Out.ok.injEq] at h2
      exact ⟨ws.flatten, by rw [← h2.1]; simp⟩

/-! ### C38 -/

/-- C38, exact: a frame of remaining length 1 is accepted as a DISCONNECT for no first byte, no
reason byte and no limit; the other short forms are accepted (`C38_short`, `C38_reason`,
`C38_disconnect`). -/
theorem C38_never (mode : StrMode) (max : Option Nat) (b1 x : UInt8) (f r r' : Bytes)
    (hf : FrameOf b1 [x] f) (d : Disconnect) :
    Packet.read mode max (f ++ r) ≠ (.ok (.Disconnect d), r') := by
  intro h
  obtain ⟨v, rfl, hv⟩ := hf
  have h1 := C35_type mode max b1 (v ++ [x] ++ r) r' _ h
  have h14 : b1.toNat / 16 = 14 := h1.symm
  have herr : ∃ e, FrameErr mode b1.toNat [x] e := by
    by_cases h0 : b1.toNat % 16 = 0
    · by_cases hx : ∃ rc, disconnectCode rc = x
      · obtain ⟨rc, rfl⟩ := hx
        refine ⟨.InsufficientBytes 1, frameErr_cut.2 ⟨rfl, ?_⟩⟩
        unfold FrameCut
        rw [h14]
        exact ⟨h0, rc, [], rfl, .inl ⟨by simp, by simp⟩⟩
      · refine ⟨.InvalidConnectReturnCode x, .inr (.inr ⟨.inr h14, ?_⟩)⟩
        unfold BodyErr
        rw [h14]
        exact .inr ⟨h0, x, [], rfl, .inl ⟨fun rc hrc => hx ⟨rc, hrc⟩, rfl⟩⟩
    · refine ⟨.MalformedPacket, .inr (.inr ⟨.inr h14, ?_⟩)⟩
      unfold BodyErr
      rw [h14]
      exact .inl ⟨h0, rfl⟩
  obtain ⟨e, he⟩ := herr
  by_cases hm : Admits max ([x] : Bytes).length
  · have := (C44_exact_error mode max (b1 :: (v ++ [x]) ++ r) r e).2
      (.inr ⟨b1, v, [x], by simp, hv, hm, he⟩)
    rw [this] at h
    simp at h
  · have ho : OverLimit max ([x] : Bytes).length :=
      Classical.byContradiction fun hh => hm (not_overLimit.1 hh)
    obtain ⟨m, rfl, hlt⟩ := ho
    have := C18_over_limit mode m 1 b1 v ([x] ++ r) hv hlt
    rw [show b1 :: (v ++ ([x] ++ r)) = b1 :: (v ++ [x]) ++ r by simp] at this
    rw [this] at h
    simp at h

end Props
