import Verif.Spec.Cut
import Verif.Proofs.Diagnose
namespace Mqtt
open Spec

section
variable {mode : StrMode} {ids : List UInt8} {w : Bytes} {k : Nat}

theorem numErr_cut {n : Nat} : ¬ NumErr n w (.InsufficientBytes k) := by simp [NumErr]
theorem binErr_cut : ¬ BinErr w (.InsufficientBytes k) := by simp [BinErr, NumErr]
theorem textErr_cut : ¬ TextErr mode w (.InsufficientBytes k) := by simp [TextErr, binErr_cut]
theorem varErr_cut : VarErr w (.InsufficientBytes k) ↔ k = 1 ∧ Cut w := by
  simp [VarErr, Cut]
  constructor
  · rintro ⟨h1, h2, h3⟩; exact ⟨h3, h1, h2⟩
  · rintro ⟨h3, h1, h2⟩; exact ⟨h1, h2, h3⟩

theorem field_cut {α : Type} {R : α → Bytes → Prop} {E : Bytes → Err → Prop}
    {F : α → Bytes → Err → Prop} (hE : ∀ w, ¬ E w (.InsufficientBytes k)) :
    Field R E F w (.InsufficientBytes k) ↔
      ∃ a u r, w = u ++ r ∧ R a u ∧ F a r (.InsufficientBytes k) := by
  simp [Field, hE]

theorem field_last {α : Type} {R : α → Bytes → Prop} {E : Bytes → Err → Prop}
    {F : α → Bytes → Err → Prop} (hF : ∀ a w, ¬ F a w (.InsufficientBytes k)) :
    Field R E F w (.InsufficientBytes k) ↔ E w (.InsufficientBytes k) := by
  simp [Field, hF]

theorem valErr_cut {ty : ValueType} : ValErr mode ty w (.InsufficientBytes k) ↔
    ty = .varint ∧ k = 1 ∧ Cut w := by
  cases ty <;> simp [ValErr, numErr_cut, binErr_cut, textErr_cut, varErr_cut, Field]

theorem valueType_varint {x : UInt8} : valueType x = some .varint ↔ x = 0x0B := by
  have h : ∀ n : Nat, n < 256 → (valueType (UInt8.ofNat n) matches some .varint) =
      (UInt8.ofNat n == 0x0B) := by decide +kernel
  have hx := h x.toNat x.toNat_lt
  rw [UInt8.ofNat_toNat] at hx
  constructor
  · intro h1; rw [h1] at hx; exact eq_of_beq hx.symm
  · rintro rfl; rfl

theorem secErr_cut : SecErr mode ids w (.InsufficientBytes k) ↔ k = 1 ∧ SecCut mode ids w := by
  unfold SecErr SecCut
  rw [varErr_cut]
  constructor
  · rintro (⟨h1, h2⟩ | ⟨v, plen, ps, ws, c, r, hw, hv, hr, hc, ho, he⟩)
    · exact ⟨h1, .inl h2⟩
    · rcases he with he | ⟨x, r', rfl, ⟨-, he⟩ | ⟨hx, ty, hty, he⟩⟩
      · exact absurd he numErr_cut
      · simp at he
      · obtain ⟨rfl, rfl, hcut⟩ := valErr_cut.1 he
        rw [valueType_varint] at hty
        subst hty
        exact ⟨rfl, .inr ⟨v, plen, ps, ws, c, r', hw, hv, hr, hc, ho, hx, hcut⟩⟩
  · rintro ⟨rfl, h | ⟨v, plen, ps, ws, c, r, hw, hv, hr, hc, ho, hx, hcut⟩⟩
    · exact .inl ⟨rfl, h⟩
    · exact .inr ⟨v, plen, ps, ws, c, _, hw, hv, hr, hc, ho, .inr ⟨0x0B, r, rfl, .inr ⟨hx, .varint,
        valueType_varint.2 rfl, valErr_cut.2 ⟨rfl, rfl, hcut⟩⟩⟩⟩

theorem ackErr_cut {known : UInt8 → Prop} : AckErr mode ids known w (.InsufficientBytes k) ↔
    k = 1 ∧ ∃ id x t, w = u16 id ++ [x] ++ t ∧ t ≠ [] ∧ SecCut mode ids t := by
  unfold AckErr
  rw [field_cut fun _ => numErr_cut]
  constructor
  · rintro ⟨id, u, r, rfl, rfl, x, t, rfl, ⟨-, -, h⟩ | ⟨ht, h⟩⟩
    · simp at h
    · rw [field_last (by simp), secErr_cut] at h
      exact ⟨h.1, id, x, t, by simp, ht, h.2⟩
  · rintro ⟨rfl, id, x, t, rfl, ht, h⟩
    refine ⟨id, _, x :: t, by simp, rfl, x, t, rfl, .inr ⟨ht, ?_⟩⟩
    rw [field_last (by simp), secErr_cut]
    exact ⟨rfl, h⟩

theorem twoSec_cut {α : Type} {R : α → Bytes → Prop}
    {F : α → Bytes → Err → Prop} (hF : ∀ a w, ¬ F a w (.InsufficientBytes k)) :
    Field TwoRep (NumErr 2) (fun _ => Field R (SecErr mode ids) F) w (.InsufficientBytes k) ↔
    k = 1 ∧ ∃ id t, w = u16 id ++ t ∧ SecCut mode ids t := by
  rw [field_cut fun _ => numErr_cut]
  simp only [field_last hF, secErr_cut]
  constructor
  · rintro ⟨id, u, r, rfl, rfl, h1, h2⟩; exact ⟨h1, id, r, rfl, h2⟩
  · rintro ⟨h1, id, r, rfl, h2⟩; exact ⟨id, _, r, rfl, rfl, h1, h2⟩

theorem filterErr_cut : ¬ FilterErr mode w (.InsufficientBytes k) := by
  unfold FilterErr
  rw [field_cut fun _ => textErr_cut]
  rintro ⟨_, _, _, _, _, h⟩
  rw [field_cut fun _ => numErr_cut] at h
  obtain ⟨_, _, _, _, _, h⟩ := h
  simp at h

theorem flagErr_cut {fl : Nat} : ¬ FlagErr mode fl w (.InsufficientBytes k) := by
  simp [FlagErr, textErr_cut]

theorem willErr_cut {fl : Nat} : WillErr mode fl w (.InsufficientBytes k) ↔
    k = 1 ∧ fl / 4 % 2 = 1 ∧ SecCut mode LastWillProperties.allowed w := by
  unfold WillErr
  rw [field_last, secErr_cut]
  · simp; constructor
    · rintro ⟨h1, h2, h3⟩; exact ⟨h2, h1, h3⟩
    · rintro ⟨h1, h2, h3⟩; exact ⟨h2, h1, h3⟩
  · intro _ _ h
    rw [field_cut fun _ => binErr_cut] at h
    obtain ⟨_, _, _, _, _, h⟩ := h
    rw [field_cut fun _ => binErr_cut] at h
    obtain ⟨_, _, _, _, _, h⟩ := h
    simp at h

theorem connectErr_cut : ConnectErr mode w (.InsufficientBytes k) ↔ k = 1 ∧
    ∃ flags alive t, w = str [0x4D, 0x51, 0x54, 0x54] ++ [5, flags] ++ u16 alive ++ t ∧
      (SecCut mode ConnectProperties.allowed t ∨
       ∃ ps s id t', t = s ++ str id ++ t' ∧ PropSec mode ConnectProperties.allowed ps s ∧
         TextField mode id ∧ flags.toNat / 4 % 2 = 1 ∧
         SecCut mode LastWillProperties.allowed t') := by
  have hlast : ∀ (fl : UInt8) (w : Bytes),
      Field (PropSec mode ConnectProperties.allowed) (SecErr mode ConnectProperties.allowed)
          (fun _ => Field (TextRep mode) (TextErr mode) fun _ =>
            Field (WillRep mode fl.toNat) (WillErr mode fl.toNat) fun _ =>
              Field (FlagField mode (fl.toNat / 128 % 2)) (FlagErr mode (fl.toNat / 128 % 2))
                fun _ => FlagErr mode (fl.toNat / 64 % 2)) w (.InsufficientBytes k) ↔
      k = 1 ∧ (SecCut mode ConnectProperties.allowed w ∨
       ∃ ps s id t', w = s ++ str id ++ t' ∧ PropSec mode ConnectProperties.allowed ps s ∧
         TextField mode id ∧ fl.toNat / 4 % 2 = 1 ∧
         SecCut mode LastWillProperties.allowed t') := by
    intro fl w
    have hfl : ∀ w, ¬ Field (FlagField mode (fl.toNat / 128 % 2))
        (FlagErr mode (fl.toNat / 128 % 2)) (fun _ => FlagErr mode (fl.toNat / 64 % 2)) w
        (.InsufficientBytes k) := by
      intro w h
      rw [field_cut fun _ => flagErr_cut] at h
      obtain ⟨_, _, _, _, _, h⟩ := h
      exact flagErr_cut h
    unfold Field
    constructor
    · rintro (h | ⟨ps, s, r, rfl, hs, h | ⟨id, u, t', rfl, ⟨h1, rfl⟩, h⟩⟩)
      · rw [secErr_cut] at h
        exact ⟨h.1, .inl h.2⟩
      · exact absurd h textErr_cut
      · have h' := (field_last (R := WillRep mode fl.toNat) (E := WillErr mode fl.toNat)
          (fun _ => hfl)).1 h
        rw [willErr_cut] at h'
        exact ⟨h'.1, .inr ⟨ps, s, id, t', by simp, hs, h1, h'.2⟩⟩
    · rintro ⟨rfl, h | ⟨ps, s, id, t', rfl, hs, h1, h2⟩⟩
      · exact .inl (secErr_cut.2 ⟨rfl, h⟩)
      · exact .inr ⟨ps, s, str id ++ t', by simp, hs, .inr ⟨id, str id, t', rfl, ⟨h1, rfl⟩,
          .inl (willErr_cut.2 ⟨rfl, h2⟩)⟩⟩
  unfold ConnectErr
  rw [field_cut fun _ => textErr_cut]
  constructor
  · rintro ⟨name, u, r, rfl, ⟨-, rfl⟩, h⟩
    rw [field_cut fun _ => numErr_cut] at h
    obtain ⟨level, u, r, rfl, rfl, ⟨-, h⟩ | ⟨-, -, h⟩ | ⟨rfl, rfl, h⟩⟩ := h
    · simp at h
    · simp at h
    · rw [field_cut fun _ => numErr_cut] at h
      obtain ⟨flags, u, r, rfl, rfl, h⟩ := h
      rw [field_cut fun _ => numErr_cut] at h
      obtain ⟨alive, u, r, rfl, rfl, h⟩ := h
      rw [hlast] at h
      exact ⟨h.1, flags, alive, r, by simp, h.2⟩
  · rintro ⟨rfl, flags, alive, t, rfl, h⟩
    refine ⟨[0x4D, 0x51, 0x54, 0x54], _, _, by simp only [List.append_assoc]; rfl,
      ⟨⟨by decide, fun _ => ⟨['M', 'Q', 'T', 'T'], rfl⟩⟩, rfl⟩, ?_⟩
    rw [field_cut fun _ => numErr_cut]
    refine ⟨5, [5], flags :: (u16 alive ++ t), by simp, rfl, .inr (.inr ⟨rfl, rfl, ?_⟩)⟩
    rw [field_cut fun _ => numErr_cut]
    refine ⟨flags, [flags], u16 alive ++ t, by simp, rfl, ?_⟩
    rw [field_cut fun _ => numErr_cut]
    exact ⟨alive, u16 alive, t, rfl, rfl, (hlast flags t).2 ⟨rfl, h⟩⟩

theorem connAckErr_cut : ConnAckErr mode w (.InsufficientBytes k) ↔ k = 1 ∧
    ∃ x y t, w = [x, y] ++ t ∧ SecCut mode ConnAckProperties.allowed t := by
  unfold ConnAckErr
  rw [field_cut fun _ => numErr_cut]
  constructor
  · rintro ⟨x, u, r, rfl, rfl, h⟩
    rw [field_cut fun _ => numErr_cut] at h
    obtain ⟨y, u, r, rfl, rfl, h⟩ := h
    rw [field_last (by simp), secErr_cut] at h
    exact ⟨h.1, x, y, r, rfl, h.2⟩
  · rintro ⟨rfl, x, y, t, rfl, h⟩
    refine ⟨x, [x], y :: t, rfl, rfl, ?_⟩
    rw [field_cut fun _ => numErr_cut]
    refine ⟨y, [y], t, rfl, rfl, ?_⟩
    rw [field_last (by simp), secErr_cut]
    exact ⟨rfl, h⟩

theorem publishErr_cut {b1 : Nat} : PublishErr mode b1 w (.InsufficientBytes k) ↔ k = 1 ∧
    ((b1 / 2 % 4 = 0 ∧ ∃ s t, w = str s ++ t ∧ TextField mode s ∧
      SecCut mode PublishProperties.allowed t) ∨
    ((b1 / 2 % 4 = 1 ∨ b1 / 2 % 4 = 2) ∧ ∃ s id t, w = str s ++ u16 id ++ t ∧
      TextField mode s ∧ id ≠ 0 ∧ SecCut mode PublishProperties.allowed t)) := by
  unfold PublishErr
  rw [field_cut fun _ => textErr_cut, field_cut fun _ => textErr_cut]
  constructor
  · rintro (⟨-, h⟩ | ⟨hq, s, u, r, rfl, ⟨hs, rfl⟩, h⟩ | ⟨hq, s, u, r, rfl, ⟨hs, rfl⟩, h⟩)
    · simp at h
    · rw [secErr_cut] at h
      exact ⟨h.1, .inl ⟨hq, s, r, rfl, hs, h.2⟩⟩
    · rw [field_cut fun _ => numErr_cut] at h
      obtain ⟨id, u, r, rfl, rfl, ⟨-, h⟩ | ⟨h0, h⟩⟩ := h
      · simp at h
      · rw [secErr_cut] at h
        exact ⟨h.1, .inr ⟨hq, s, id, r, by simp, hs, h0, h.2⟩⟩
  · rintro ⟨rfl, ⟨hq, s, t, rfl, hs, h⟩ | ⟨hq, s, id, t, rfl, hs, h0, h⟩⟩
    · exact .inr (.inl ⟨hq, s, _, t, rfl, ⟨hs, rfl⟩, secErr_cut.2 ⟨rfl, h⟩⟩)
    · refine .inr (.inr ⟨hq, s, _, u16 id ++ t, by simp, ⟨hs, rfl⟩, ?_⟩)
      rw [field_cut fun _ => numErr_cut]
      exact ⟨id, _, t, rfl, rfl, .inr ⟨h0, secErr_cut.2 ⟨rfl, h⟩⟩⟩

theorem disconnectErr_cut {b1 : Nat} : DisconnectErr mode b1 w (.InsufficientBytes k) ↔ k = 1 ∧
    (b1 % 16 = 0 ∧ ∃ r t, w = disconnectCode r :: t ∧
      SecCut mode DisconnectProperties.allowed t) := by
  unfold DisconnectErr
  constructor
  · rintro (⟨-, h⟩ | ⟨h0, x, t, rfl, ⟨-, h⟩ | ⟨⟨r, rfl⟩, h⟩⟩)
    · simp at h
    · simp at h
    · rw [secErr_cut] at h
      exact ⟨h.1, h0, r, t, rfl, h.2⟩
  · rintro ⟨rfl, h0, r, t, rfl, h⟩
    exact .inr ⟨h0, _, t, rfl, .inr ⟨⟨r, rfl⟩, secErr_cut.2 ⟨rfl, h⟩⟩⟩

theorem bodyErr_cut {b1 : Nat} : BodyErr mode b1 w (.InsufficientBytes k) ↔
    k = 1 ∧ FrameCut mode b1 w := by
  unfold BodyErr FrameCut
  generalize b1 / 16 = t
  rcases t with _ | _ | _ | _ | _ | _ | _ | _ | _ | _ | _ | _ | _ | _ | _ | t
  · simp
  · exact connectErr_cut
  · exact connAckErr_cut
  · exact publishErr_cut
  · exact ackErr_cut
  · exact ackErr_cut
  · exact ackErr_cut
  · exact ackErr_cut
  · refine twoSec_cut ?_
    rintro _ _ (⟨-, h⟩ | ⟨_, _, _, _, _, _, h⟩)
    · simp at h
    · exact filterErr_cut h
  · refine twoSec_cut ?_
    rintro _ _ (⟨-, h⟩ | ⟨_, _, _, _, _, _, h⟩) <;> simp at h
  · refine twoSec_cut ?_
    rintro _ _ ⟨_, _, _, _, _, _, h⟩
    exact textErr_cut h
  · refine twoSec_cut ?_
    rintro _ _ (⟨-, h⟩ | ⟨_, _, _, _, _, _, h⟩) <;> simp at h
  · simp
  · simp
  · exact disconnectErr_cut
  · simp

theorem frameCut_ne {b1 : Nat} (h : FrameCut mode b1 w) : w ≠ [] := by
  unfold FrameCut at h
  rintro rfl
  split at h <;> simp [u16, str] at h

theorem frameErr_cut {b1 : Nat} : FrameErr mode b1 w (.InsufficientBytes k) ↔
    k = 1 ∧ FrameCut mode b1 w := by
  unfold FrameErr
  rw [bodyErr_cut]
  constructor
  · rintro (⟨-, h⟩ | ⟨-, -, -, h⟩ | ⟨-, h⟩)
    · simp at h
    · simp at h
    · exact h
  · rintro ⟨rfl, h⟩
    exact .inr (.inr ⟨.inl (frameCut_ne h), rfl, h⟩)

end
end Mqtt
