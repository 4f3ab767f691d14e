import Verif.Proofs.Display
import Verif.Model.Packet
/-
C57: the texts of errors.
-/
namespace Props

open Mqtt

/-- C57: two errors have the same text only if they are the same error, or both say that the
protocol level is wrong: then the level is not in the text. -/
theorem C57_texts (e e' : Err) :
    e.display = e'.display ↔
      e = e' ∨ ∃ n n', e = .InvalidProtocolLevel n ∧ e' = .InvalidProtocolLevel n' := by
  refine ⟨Err.display_inj, ?_⟩
  rintro (rfl | ⟨n, n', rfl, rfl⟩) <;> rfl

/-- C57, the exception: a CONNECT with protocol level 3 and one with level 4 are refused with
different errors of the same text. -/
theorem C57_exception :
    Packet.read .utf8 none [0x10, 8, 0, 4, 0x4D, 0x51, 0x54, 0x54, 3, 0] =
      (.err (.InvalidProtocolLevel 3), []) ∧
    Packet.read .utf8 none [0x10, 8, 0, 4, 0x4D, 0x51, 0x54, 0x54, 4, 0] =
      (.err (.InvalidProtocolLevel 4), []) ∧
    Err.display (.InvalidProtocolLevel 3) = Err.display (.InvalidProtocolLevel 4) :=
  ⟨by decide +kernel, by decide +kernel, rfl⟩

/-- Two errors of the decoder with different texts: one byte missing, two bytes missing. -/
example : Packet.read .utf8 none [0xC0] = (.err (.InsufficientBytes 1), [0xC0]) ∧
    Packet.read .utf8 none [0xC0, 2] = (.err (.InsufficientBytes 2), [0xC0, 2]) ∧
    Err.display (.InsufficientBytes 1) ≠ Err.display (.InsufficientBytes 2) := by
  refine ⟨by decide +kernel, by decide +kernel, fun h => ?_⟩
  rcases (C57_texts _ _).1 h with h | ⟨_, _, h, _⟩
  · exact absurd h (by decide)
  · cases h

end Props
