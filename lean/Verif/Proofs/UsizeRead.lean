import Verif.Proofs.Usize
import Verif.Model.UsizeRead
/-
`Packet::read` with overflow checks is `Packet::read`.
-/
set_option linter.unusedSimpArgs false

namespace Mqtt

section
variable {w : Nat} (hw : 32 ≤ w)
include hw

theorem lengthMW_eq : lengthMW w = lengthM := by funext b; rw [lengthMW, lengthW_eq hw]; rfl

theorem propLoopW_congr {σ : Type} {step stepW : UInt8 → PropertyType → σ → Nat → M (σ × Nat)}
    (h : ∀ p t s c, c ≤ 268435455 → stepW p t s c = step p t s c) {plen : Nat}
    (hp : plen ≤ 268435455) : ∀ fuel c s,
    propLoopW w stepW plen fuel c s = propLoopW w step plen fuel c s := by
  intro fuel
  induction fuel with
  | zero => intro c s; rfl
  | succ fuel ih =>
    intro c s
    rw [propLoopW, propLoopW]
    split
    case isFalse => rfl
    case isTrue hc =>
      congr 1; funext prop
      rw [addW_ok hw (by omega)]
      show (liftOut (property prop) >>= _) = (liftOut (property prop) >>= _)
      congr 1; funext ty
      rw [h _ _ _ _ (by omega)]
      simp only [ih]

theorem readPropsW_congr {σ : Type} {step stepW : UInt8 → PropertyType → σ → Nat → M (σ × Nat)}
    (h : ∀ p t s c, c ≤ 268435455 → stepW p t s c = step p t s c) (init : σ) :
    readPropsW w stepW init = readPropsW w step init := by
  funext b
  unfold readPropsW
  rw [lengthMW_eq hw, M.bind_apply, M.bind_apply]
  rcases hl : lengthM b with ⟨o, b'⟩
  cases o with
  | ok x =>
    obtain ⟨k, n⟩ := x
    have := length_bounds (Prod.ext_iff.1 hl).1
    simp only [propLoopW_congr hw h this.2]
  | _ => rfl

variable (mode : StrMode)

theorem PublishProperties.stepW_eq (p : UInt8) (t : PropertyType) (s : PublishProperties) (c : Nat)
    (hc : c ≤ 268435455) :
    PublishProperties.stepW w mode p t s c = PublishProperties.step mode p t s c := by
  cases t
  case SubscriptionIdentifier =>
    simp only [PublishProperties.stepW, PublishProperties.step, lengthMW_eq hw]
    funext b
    rw [M.bind_apply, M.bind_apply]
    rcases hl : lengthM b with ⟨o, b'⟩
    cases o with
    | ok x =>
      obtain ⟨k, n⟩ := x
      have := length_bounds (Prod.ext_iff.1 hl).1
      dsimp only
      rw [addW_ok hw (by omega)]
      show (liftOut (addW w c (1 + k)) >>= _) b' = _
      rw [addW_ok hw (by omega)]
      rfl
    | _ => rfl
  all_goals rfl

theorem SubscribeProperties.stepW_eq (p : UInt8) (t : PropertyType) (s : SubscribeProperties)
    (c : Nat) (hc : c ≤ 268435455) :
    SubscribeProperties.stepW w mode p t s c = SubscribeProperties.step mode p t s c := by
  cases t
  case SubscriptionIdentifier =>
    simp only [SubscribeProperties.stepW, SubscribeProperties.step, lengthMW_eq hw]
    funext b
    rw [M.bind_apply, M.bind_apply]
    rcases hl : lengthM b with ⟨o, b'⟩
    cases o with
    | ok x =>
      obtain ⟨k, n⟩ := x
      have := length_bounds (Prod.ext_iff.1 hl).1
      dsimp only
      rw [addW_ok hw (by omega)]
      show (liftOut (addW w c (1 + k)) >>= _) b' = _
      rw [addW_ok hw (by omega)]
      rfl
    | _ => rfl
  all_goals rfl

theorem PublishProperties.readW_eq : readPropsW w (PublishProperties.stepW w mode)
    PublishProperties.init = PublishProperties.read mode :=
  (readPropsW_congr hw (PublishProperties.stepW_eq hw mode) _).trans
    (readPropsW_eq hw (PublishProperties.stepSpec mode) rfl)

theorem SubscribeProperties.readW_eq : readPropsW w (SubscribeProperties.stepW w mode)
    SubscribeProperties.init = SubscribeProperties.read mode :=
  (readPropsW_congr hw (SubscribeProperties.stepW_eq hw mode) _).trans
    (readPropsW_eq hw (SubscribeProperties.stepSpec mode) rfl)

theorem LastWill.readW_eq (x : UInt8) : LastWill.readW w mode x = LastWill.read mode x := by
  simp only [LastWill.readW, LastWill.read, readPropsW_eq hw (init := LastWillProperties.init) (LastWillProperties.stepSpec mode) rfl,
    LastWillProperties.read]

variable (h : FixedHeader)

theorem Connect.readW_eq : Connect.readW w mode h = Connect.read mode h := by
  simp only [Connect.readW, Connect.read, readPropsW_eq hw (init := ConnectProperties.init) (ConnectProperties.stepSpec mode) rfl,
    ConnectProperties.read, LastWill.readW_eq hw]

theorem ConnAck.readW_eq : ConnAck.readW w mode h = ConnAck.read mode h := by
  simp only [ConnAck.readW, ConnAck.read, readPropsW_eq hw (init := ConnAckProperties.init) (ConnAckProperties.stepSpec mode) rfl,
    ConnAckProperties.read]

theorem Publish.readW_eq : Publish.readW w mode h = Publish.read mode h := by
  simp only [Publish.readW, Publish.read, PublishProperties.readW_eq hw]
  congr 1; funext q; congr 1; funext _; congr 1; funext _
  cases q <;> rfl

theorem PubAck.readW_eq : PubAck.readW w mode h = PubAck.read mode h := by
  simp only [PubAck.readW, PubAck.read, readPropsW_eq hw (init := PubAckProperties.init) (PubAckProperties.stepSpec mode) rfl,
    PubAckProperties.read]

theorem PubRec.readW_eq : PubRec.readW w mode h = PubRec.read mode h := by
  simp only [PubRec.readW, PubRec.read, readPropsW_eq hw (init := PubRecProperties.init) (PubRecProperties.stepSpec mode) rfl,
    PubRecProperties.read]

theorem PubRel.readW_eq : PubRel.readW w mode h = PubRel.read mode h := by
  simp only [PubRel.readW, PubRel.read, readPropsW_eq hw (init := PubRelProperties.init) (PubRelProperties.stepSpec mode) rfl,
    PubRelProperties.read]

theorem PubComp.readW_eq : PubComp.readW w mode h = PubComp.read mode h := by
  simp only [PubComp.readW, PubComp.read, readPropsW_eq hw (init := PubCompProperties.init) (PubCompProperties.stepSpec mode) rfl,
    PubCompProperties.read]

theorem Subscribe.readW_eq : Subscribe.readW w mode h = Subscribe.read mode h := by
  simp only [Subscribe.readW, Subscribe.read, SubscribeProperties.readW_eq hw, Filter.read, bind_assoc]
  rfl

theorem SubAck.readW_eq : SubAck.readW w mode h = SubAck.read mode h := by
  simp only [SubAck.readW, SubAck.read, readPropsW_eq hw (init := SubAckProperties.init) (SubAckProperties.stepSpec mode) rfl,
    SubAckProperties.read]

theorem Unsubscribe.readW_eq : Unsubscribe.readW w mode h = Unsubscribe.read mode h := by
  simp only [Unsubscribe.readW, Unsubscribe.read,
    readPropsW_eq hw (init := UnsubscribeProperties.init) (UnsubscribeProperties.stepSpec mode) rfl, UnsubscribeProperties.read]

theorem UnsubAck.readW_eq : UnsubAck.readW w mode h = UnsubAck.read mode h := by
  simp only [UnsubAck.readW, UnsubAck.read, readPropsW_eq hw (init := UnsubAckProperties.init) (UnsubAckProperties.stepSpec mode) rfl,
    UnsubAckProperties.read]

theorem Disconnect.readW_eq : Disconnect.readW w mode h = Disconnect.read mode h := by
  simp only [Disconnect.readW, Disconnect.read,
    readPropsW_eq hw (init := DisconnectProperties.init) (DisconnectProperties.stepSpec mode) rfl, DisconnectProperties.extract]

omit h in
theorem Packet.readW_eq (max : Option Nat) : Packet.readW w mode max = Packet.read mode max := by
  have hb : ∀ h t b, Packet.readBodyW w mode h t b = Packet.readBody mode h t b := by
    intro h t b
    cases t <;> simp only [Packet.readBodyW, Packet.readBody, Connect.readW_eq hw, ConnAck.readW_eq hw,
      Publish.readW_eq hw, PubAck.readW_eq hw, PubRec.readW_eq hw, PubRel.readW_eq hw,
      PubComp.readW_eq hw, Subscribe.readW_eq hw, SubAck.readW_eq hw, Unsubscribe.readW_eq hw,
      UnsubAck.readW_eq hw, Disconnect.readW_eq hw]
  simp only [Packet.readW, Packet.read, hb, checkW_eq hw]
  rfl

end

end Mqtt
