import Verif.Proofs.Diagnose
import Verif.Props.Samples
import Verif.Props.Properties
/-
C44: which defect is reported, with which value.
-/
namespace Props

open Mqtt Spec

/-- C44: `Packet::read` fails with `e` and leaves `r` exactly if the start of the stream is no
complete admissible frame, for the reason `e`, and the stream is left as it was; or the stream
starts with a complete admissible frame whose first defect is `e`, and `r` is what follows it. -/
theorem C44_exact_error (mode : StrMode) (max : Option Nat) (b r : Bytes) (e : Err) :
    Packet.read mode max b = (.err e, r) ↔
      (r = b ∧ HeadErr max b e) ∨
      ∃ b1 v body, b = b1 :: (v ++ (body ++ r)) ∧ VarintRep v body.length ∧
        Admits max body.length ∧ FrameErr mode b1.toNat body e := read_err_iff

/-- C44: each frame either has exactly one meaning and no defect, or exactly one first defect and
no meaning. -/
theorem C44_one_verdict (mode : StrMode) (b1 : UInt8) (v body : Bytes)
    (hv : VarintRep v body.length) :
    ((∃ p, FrameRep mode (b1 :: (v ++ body)) p ∧
        ∀ q, FrameRep mode (b1 :: (v ++ body)) q → q = p) ∧
      ∀ e, ¬ FrameErr mode b1.toNat body e) ∨
    ((∃ e, FrameErr mode b1.toNat body e ∧ ∀ e', FrameErr mode b1.toNat body e' → e' = e) ∧
      ∀ p, ¬ FrameRep mode (b1 :: (v ++ body)) p) := by
  have hrep : ∀ p, FrameRep mode (b1 :: (v ++ body)) p ↔ frameOut mode b1 v body = .ok p := by
    intro p
    rw [frameOut_ok]
    constructor
    · rintro ⟨b1', v', body', h, hv', ht, hb⟩
      obtain ⟨h1, h2⟩ := List.cons.inj h
      obtain ⟨-, -, h3⟩ := varintRep_unique hv hv' h2
      subst h1 h3
      exact ⟨ht, hb⟩
    · rintro ⟨ht, hb⟩
      exact ⟨b1, v, body, rfl, hv, ht, hb⟩
  simp only [hrep, ← frameOut_diag (v := v)]
  obtain ⟨h1, h2⟩ := frameOut_total (mode := mode) b1 v body
  cases h : frameOut mode b1 v body with
  | ok p => exact .inl ⟨⟨p, rfl, fun q hq => (Out.ok.inj hq).symm⟩, fun e he => by cases he⟩
  | err e => exact .inr ⟨⟨e, rfl, fun q hq => (Out.err.inj hq).symm⟩, fun e he => by cases he⟩
  | panic => exact absurd h h1
  | diverge => exact absurd h h2

/-! Examples: one frame per kind of defect. -/

/-- A PUBACK with a foreign property in a good section (0x0B, subscription identifier). -/
example : FrameErr .utf8 0x40 [0, 1, 0, 2, 0x0B, 7] (.InvalidPropertyType 0x0B) :=
  .inr (.inr ⟨.inl (by simp), .inr ⟨1, [0, 1], _, rfl, rfl, 0, _, rfl, .inr ⟨by simp, .inl
    (.inr ⟨[2], 2, [], [], 0, [0x0B, 7], rfl, varintRep_small 2 (by decide), .nil 0, by decide,
      by simp, .inr ⟨0x0B, [7], rfl, .inl ⟨by decide, rfl⟩⟩⟩)⟩⟩⟩)

example : Packet.read .utf8 none [0x40, 6, 0, 1, 0, 2, 0x0B, 7, 0xFF] =
    (.err (.InvalidPropertyType 0x0B), [0xFF]) := rfl

/-- The reason code of a PUBACK is only looked at if the properties are fine. -/
example : Packet.read .utf8 none [0x40, 4, 0, 1, 0x77, 0] =
    (.err (.InvalidConnectReturnCode 0x77), []) := rfl

example : Packet.read .utf8 none [0x40, 6, 0, 1, 0x77, 2, 0x0B, 7] =
    (.err (.InvalidPropertyType 0x0B), []) := rfl

/-- A string that is announced longer than the frame, in a user property of a SUBACK. -/
example : Packet.read .utf8 none [0x90, 9, 0, 1, 6, 0x26, 0, 1, 0x6B, 0x01, 0x02] =
    (.err (.BoundaryCrossed 258), []) := rfl

/-- Level 4 of protocol `MQTT`. -/
example : Packet.read .utf8 none [0x10, 7, 0, 4, 0x4D, 0x51, 0x54, 0x54, 4] =
    (.err (.InvalidProtocolLevel 4), []) := rfl

/-- Will flag 0, will QoS 1. -/
example : Packet.read .utf8 none
    [0x10, 14, 0, 4, 0x4D, 0x51, 0x54, 0x54, 5, 0x08, 0, 60, 0, 0, 1, 0x63] =
    (.err .IncorrectPacketFormat, []) := rfl

/-- The second subscription has retain handling 3. -/
example : Packet.read .utf8 none [0x82, 11, 0, 1, 0, 0, 1, 0x61, 1, 0, 1, 0x62, 0x30] =
    (.err (.InvalidRetainForwardRule 3), []) := rfl

example : FilterErr .utf8 [0, 1, 0x62, 0x30] (.InvalidRetainForwardRule 3) :=
  .inr ⟨[0x62], [0, 1, 0x62], [0x30], rfl, ⟨⟨by decide, fun _ => ⟨['b'], rfl⟩⟩, rfl⟩,
    .inr ⟨0x30, [0x30], [], rfl, rfl, .inl ⟨rfl, rfl⟩⟩⟩

/-- Headers. -/
example : HeadErr (some 10) [0x30, 11, 0] (.PayloadSizeLimitExceeded 11 10) :=
  .inr (.inr ⟨0x30, [11], 11, [0], rfl, varintRep_small 11 (by decide),
    .inl ⟨10, rfl, by decide, rfl⟩⟩)

example : HeadErr (some 11) [0x30, 11, 0] (.InsufficientBytes 10) :=
  .inr (.inr ⟨0x30, [11], 11, [0], rfl, varintRep_small 11 (by decide),
    .inr ⟨fun m hm => by cases hm; decide, by decide, rfl⟩⟩)

example : FrameErr .utf8 0xF3 [1, 2, 3] (.InvalidPacketType 15) := .inl ⟨.inr rfl, rfl⟩

end Props
