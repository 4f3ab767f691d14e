import Verif.Proofs.Main
import Verif.Spec.Errors
/-
Which errors the readers can return.
-/
set_option linter.unusedSectionVars false

namespace Mqtt

open Spec

/-- All errors of `m` satisfy `S`. -/
def Errs {α : Type} (S : Err → Prop) (m : M α) : Prop := ∀ b e b', m b = (.err e, b') → S e

namespace Errs

variable {α β : Type} {S T : Err → Prop}

theorem mono {m : M α} (h : Errs S m) (hs : ∀ e, S e → T e) : Errs T m :=
  fun b e b' h' => hs e (h b e b' h')

theorem pure (a : α) : Errs S (Pure.pure a : M α) := by intro b e b' h; simp at h

theorem throwE {e : Err} (h : S e) : Errs S (Mqtt.throwE e : M α) := by
  intro b e' b' h'; simp at h'; exact h'.1 ▸ h

theorem bind {m : M α} {f : α → M β} (h1 : Errs S m) (h2 : ∀ a, Errs S (f a)) :
    Errs S (m >>= f) := by
  intro b e b' h
  rcases M.bind_eq_err.1 h with h | ⟨a, b1, -, h⟩
  · exact h1 _ _ _ h
  · exact h2 a _ _ _ h

theorem ite {c : Prop} [Decidable c] {m1 m2 : M α} (h1 : c → Errs S m1) (h2 : ¬ c → Errs S m2) :
    Errs S (if c then m1 else m2) := by
  split
  · exact h1 ‹_›
  · exact h2 ‹_›

theorem liftOut {o : Out α} (h : ∀ e, o = .err e → S e) : Errs S (Mqtt.liftOut o) := by
  intro b e b' h'
  simp only [Mqtt.liftOut, Prod.mk.injEq] at h'
  exact h e h'.1

theorem getBuf : Errs S Mqtt.getBuf := by intro b e b' h; simp [Mqtt.getBuf] at h

theorem advance (n : Nat) : Errs S (Mqtt.advance n) := by
  intro b e b' h
  unfold Mqtt.advance at h
  split at h <;> simp at h

theorem splitTo (n : Nat) : Errs S (Mqtt.splitTo n) := by
  intro b e b' h
  unfold Mqtt.splitTo at h
  split at h <;> simp at h

theorem getU8 : Errs S Mqtt.getU8 := by
  intro b e b' h; cases b <;> simp [Mqtt.getU8] at h

theorem getU16 : Errs S Mqtt.getU16 := by
  intro b e b' h
  unfold Mqtt.getU16 at h
  split at h <;> simp at h

theorem getU32 : Errs S Mqtt.getU32 := by
  intro b e b' h
  unfold Mqtt.getU32 at h
  split at h <;> simp at h

theorem diverge : Errs S (fun b => (.diverge, b) : M α) := by
  intro b e b' h; simp at h

end Errs

variable {mode : StrMode} {S : Err → Prop}

theorem Errs.read_u8 (h : ∀ e, ContentError mode e → S e) : Errs S read_u8 :=
  .bind .getBuf fun _ => .ite (fun _ => .throwE (h _ (.inl rfl))) (fun _ => .getU8)

theorem Errs.read_u16 (h : ∀ e, ContentError mode e → S e) : Errs S read_u16 :=
  .bind .getBuf fun _ => .ite (fun _ => .throwE (h _ (.inl rfl))) (fun _ => .getU16)

theorem Errs.read_u32 (h : ∀ e, ContentError mode e → S e) : Errs S read_u32 :=
  .bind .getBuf fun _ => .ite (fun _ => .throwE (h _ (.inl rfl))) (fun _ => .getU32)

theorem Errs.read_mqtt_bytes (h : ∀ e, ContentError mode e → S e) : Errs S read_mqtt_bytes :=
  .bind (.read_u16 h) fun len => .bind .getBuf fun _ => .ite
    (fun _ => .throwE (h _ (.inr (.inl ⟨_, by have := len.toNat_lt; omega, rfl⟩))))
    (fun _ => .splitTo _)

theorem Errs.read_mqtt_string (h : ∀ e, ContentError mode e → S e) :
    Errs S (read_mqtt_string mode) := by
  refine .bind (.read_mqtt_bytes h) fun _ => ?_
  cases mode with
  | utf8 => exact .ite (fun _ => .pure _) (fun _ => .throwE (h _ (.inr (.inr (.inl ⟨rfl, rfl⟩)))))
  | binary => exact .pure _

theorem Errs.lengthM (h : ∀ e, ContentError mode e → S e) : Errs S lengthM := by
  intro b e b' he
  simp only [Mqtt.lengthM, Prod.mk.injEq] at he
  obtain ⟨he, -⟩ := he
  rcases varint_trichotomy b with ⟨w, m, r, rfl, hw⟩ | ⟨h1, h2⟩ | ⟨w, r, rfl, h1, h2⟩
  · rw [length_rep hw] at he; simp at he
  · rw [length_short h1 h2] at he; simp at he
    exact h _ (.inr (.inr (.inr (.inl he.symm))))
  · rw [length_long r h1 h2] at he; simp at he
    exact h _ (.inr (.inr (.inr (.inr (.inl he.symm)))))

theorem Errs.readVal (h : ∀ e, ContentError mode e → S e) (ty : PropertyType) :
    Errs S (readVal mode ty) := by
  cases ty
  case SubscriptionIdentifier =>
    exact .bind (.lengthM h) fun _ => .bind (.advance _) fun _ => .pure _
  case UserProperty =>
    exact .bind (.read_mqtt_string h) fun _ => .bind (.read_mqtt_string h) fun _ => .pure _
  all_goals first
    | exact .bind (.read_u8 h) fun _ => .pure _
    | exact .bind (.read_u16 h) fun _ => .pure _
    | exact .bind (.read_u32 h) fun _ => .pure _
    | exact .bind (.read_mqtt_string h) fun _ => .pure _
    | exact .bind (.read_mqtt_bytes h) fun _ => .pure _

theorem _root_.Spec.ContentError.property (x : UInt8) : ContentError mode (.InvalidPropertyType x) :=
  .inr (.inr (.inr (.inr (.inr ⟨x, rfl⟩))))

theorem Errs.property (h : ∀ e, ContentError mode e → S e) (x : UInt8) :
    Errs S (Mqtt.liftOut (property x)) := by
  refine .liftOut fun e he => ?_
  rcases property_spec x with ⟨ty, h', -⟩ | h'
  · rw [h'] at he; simp at he
  · rw [h'] at he; simp at he; exact he ▸ h _ (.property x)

theorem Errs.gLoop (h : ∀ e, ContentError mode e → S e) (ids : List UInt8) (plen : Nat) :
    ∀ (fuel c : Nat) (l : List Property), Errs S (gLoop mode ids plen fuel c l) := by
  intro fuel
  induction fuel with
  | zero => intro c l; exact .diverge
  | succ fuel ih =>
    intro c l
    unfold Mqtt.gLoop
    refine .ite (fun _ => .bind (.read_u8 h) fun prop => .bind (.property h prop) fun ty => ?_)
      (fun _ => .pure _)
    first
      | exact .ite (fun _ => .bind (.readVal h ty) fun _ => ih _ _)
          (fun _ => .throwE (h _ (.property _)))
      | exact .bind (.ite (fun _ => .readVal h ty) (fun _ => .throwE (h _ (.property _))))
          fun _ => ih _ _

theorem Errs.gRead (h : ∀ e, ContentError mode e → S e) (ids : List UInt8) :
    Errs S (gRead mode ids) :=
  .bind (.lengthM h) fun _ => .bind (.advance _) fun _ => .ite (fun _ => .pure _) fun _ =>
    .bind .getBuf fun _ => .bind (.gLoop h ids _ _ _ _) fun _ => .pure _

theorem Errs.props (h : ∀ e, ContentError mode e → S e) {σ : Type} {ids : List UInt8}
    {read : M (Option σ)} {ofList : List Property → σ}
    (he : read = Mqtt.gRead mode ids >>= fun o => Pure.pure (o.map ofList)) : Errs S read := by
  rw [he]; exact .bind (.gRead h ids) fun _ => .pure _

/-- A decoder of reason codes. -/
theorem Errs.code {ρ : Type} {ofU8 : UInt8 → Out ρ} {codeOf : ρ → UInt8} {mk : UInt8 → Err}
    (hspec : ∀ x, (∃ r, ofU8 x = .ok r ∧ codeOf r = x) ∨ ofU8 x = .err (mk x))
    (hok : ∀ x r, ofU8 x = .ok r ↔ x = codeOf r)
    (h : ∀ e, (∃ n, (∀ r, codeOf r ≠ n) ∧ e = mk n) → S e) (x : UInt8) :
    Errs S (Mqtt.liftOut (ofU8 x)) := by
  refine .liftOut fun e he => ?_
  rcases hspec x with ⟨r, h', -⟩ | h'
  · rw [h'] at he; simp at he
  · refine h e ⟨x, fun r hr => ?_, ?_⟩
    · rw [(hok x r).2 hr.symm] at h'; simp at h'
    · rw [h'] at he; simp at he; exact he.symm

theorem Errs.qosOrErr {x : UInt8} (hx : x.toNat < 4) (h : S (.InvalidQoS 3)) :
    Errs S (qosOrErr x) := by
  unfold Mqtt.qosOrErr
  cases hq : qos x with
  | some q => exact .pure _
  | none =>
    have := (qos_none x).1 hq
    have h3 : x = 3 := UInt8.toNat_inj.1 (by simp; omega)
    exact .throwE (h3 ▸ h)

/-! ### Packets -/

theorem PubAck.read_errs (fh : FixedHeader) : Errs (FrameError mode 4) (PubAck.read mode fh) :=
  have h : ∀ e, ContentError mode e → FrameError mode 4 e := fun _ => .inl
  have hc := Errs.code PubAckReason.ofU8_spec (fun _ _ => PubAckReason.ofU8_ok)
    (S := FrameError mode 4) (fun _ => .inr)
  .bind (.advance _) fun _ => .bind (.read_u16 h) fun _ => .ite (fun _ => .pure _) fun _ =>
    .bind (.read_u8 h) fun _ => .ite (fun _ => .bind (hc _) fun _ => .pure _) fun _ =>
      .bind (.props h (PubAckProperties.read_eq mode)) fun _ => .bind (hc _) fun _ => .pure _

theorem PubRec.read_errs (fh : FixedHeader) : Errs (FrameError mode 5) (PubRec.read mode fh) :=
  have h : ∀ e, ContentError mode e → FrameError mode 5 e := fun _ => .inl
  have hc := Errs.code PubRecReason.ofU8_spec (fun _ _ => PubRecReason.ofU8_ok)
    (S := FrameError mode 5) (fun _ => .inr)
  .bind (.advance _) fun _ => .bind (.read_u16 h) fun _ => .ite (fun _ => .pure _) fun _ =>
    .bind (.read_u8 h) fun _ => .ite (fun _ => .bind (hc _) fun _ => .pure _) fun _ =>
      .bind (.props h (PubRecProperties.read_eq mode)) fun _ => .bind (hc _) fun _ => .pure _

theorem PubRel.read_errs (fh : FixedHeader) : Errs (FrameError mode 6) (PubRel.read mode fh) :=
  have h : ∀ e, ContentError mode e → FrameError mode 6 e := fun _ => .inl
  have hc := Errs.code PubRelReason.ofU8_spec (fun _ _ => PubRelReason.ofU8_ok)
    (S := FrameError mode 6) (fun _ => .inr)
  .bind (.advance _) fun _ => .bind (.read_u16 h) fun _ => .ite (fun _ => .pure _) fun _ =>
    .bind (.read_u8 h) fun _ => .ite (fun _ => .bind (hc _) fun _ => .pure _) fun _ =>
      .bind (.props h (PubRelProperties.read_eq mode)) fun _ => .bind (hc _) fun _ => .pure _

theorem PubComp.read_errs (fh : FixedHeader) : Errs (FrameError mode 7) (PubComp.read mode fh) :=
  have h : ∀ e, ContentError mode e → FrameError mode 7 e := fun _ => .inl
  have hc := Errs.code PubCompReason.ofU8_spec (fun _ _ => PubCompReason.ofU8_ok)
    (S := FrameError mode 7) (fun _ => .inr)
  .bind (.advance _) fun _ => .bind (.read_u16 h) fun _ => .ite (fun _ => .pure _) fun _ =>
    .bind (.read_u8 h) fun _ => .ite (fun _ => .bind (hc _) fun _ => .pure _) fun _ =>
      .bind (.props h (PubCompProperties.read_eq mode)) fun _ => .bind (hc _) fun _ => .pure _

theorem SubAck.readLoop_errs (fuel : Nat) (acc : List SubscribeReasonCode) :
    Errs (FrameError mode 9) (SubAck.readLoop fuel acc) := by
  have h : ∀ e, ContentError mode e → FrameError mode 9 e := fun _ => .inl
  have hc := Errs.code SubscribeReasonCode.ofU8_spec (fun _ _ => SubscribeReasonCode.ofU8_ok)
    (S := FrameError mode 9) (fun _ => .inr)
  induction fuel generalizing acc with
  | zero => exact .diverge
  | succ fuel ih =>
    exact .bind .getBuf fun _ => .ite (fun _ => .pure _) fun _ => .bind (.read_u8 h) fun _ =>
      .bind (hc _) fun _ => ih _

theorem SubAck.read_errs (fh : FixedHeader) : Errs (FrameError mode 9) (SubAck.read mode fh) :=
  have h : ∀ e, ContentError mode e → FrameError mode 9 e := fun _ => .inl
  .bind (.advance _) fun _ => .bind (.read_u16 h) fun _ =>
    .bind (.props h (SubAckProperties.read_eq mode)) fun _ => .bind .getBuf fun _ =>
      .ite (fun _ => .throwE (h _ (.inl rfl))) fun _ => .bind (SubAck.readLoop_errs _ _) fun _ =>
        .pure _

theorem UnsubAck.readLoop_errs (fuel : Nat) (acc : List UnsubAckReason) :
    Errs (FrameError mode 11) (UnsubAck.readLoop fuel acc) := by
  have h : ∀ e, ContentError mode e → FrameError mode 11 e := fun _ => .inl
  have hc := Errs.code UnsubAckReason.ofU8_spec (fun _ _ => UnsubAckReason.ofU8_ok)
    (S := FrameError mode 11) (fun _ => .inr)
  induction fuel generalizing acc with
  | zero => exact .diverge
  | succ fuel ih =>
    exact .bind .getBuf fun _ => .ite (fun _ => .pure _) fun _ => .bind (.read_u8 h) fun _ =>
      .bind (hc _) fun _ => ih _

theorem UnsubAck.read_errs (fh : FixedHeader) :
    Errs (FrameError mode 11) (UnsubAck.read mode fh) :=
  have h : ∀ e, ContentError mode e → FrameError mode 11 e := fun _ => .inl
  .bind (.advance _) fun _ => .bind (.read_u16 h) fun _ =>
    .bind (.props h (UnsubAckProperties.read_eq mode)) fun _ => .bind .getBuf fun _ =>
      .ite (fun _ => .throwE (h _ (.inl rfl))) fun _ => .bind (UnsubAck.readLoop_errs _ _) fun _ =>
        .pure _

theorem Unsubscribe.readLoop_errs (fuel : Nat) (acc : List MqttString) :
    Errs (FrameError mode 10) (Unsubscribe.readLoop mode fuel acc) := by
  have h : ∀ e, ContentError mode e → FrameError mode 10 e := fun _ => id
  induction fuel generalizing acc with
  | zero => exact .diverge
  | succ fuel ih =>
    exact .bind .getBuf fun _ => .ite (fun _ => .pure _) fun _ =>
      .bind (.read_mqtt_string h) fun _ => ih _

theorem Unsubscribe.read_errs (fh : FixedHeader) :
    Errs (FrameError mode 10) (Unsubscribe.read mode fh) :=
  have h : ∀ e, ContentError mode e → FrameError mode 10 e := fun _ => id
  .bind (.advance _) fun _ => .bind (.read_u16 h) fun _ =>
    .bind (.props h (UnsubscribeProperties.read_eq mode)) fun _ => .bind .getBuf fun _ =>
      .bind (Unsubscribe.readLoop_errs _ _) fun _ => .pure _

theorem rule_lt (x : UInt8) : (((x >>> 4) &&& 0b00000011 : UInt8)).toNat < 4 ∧
    (x &&& 0b00000011 : UInt8).toNat < 4 :=
  u8_all (P := fun x => (((x >>> 4) &&& 0b00000011 : UInt8)).toNat < 4 ∧
    (x &&& 0b00000011 : UInt8).toNat < 4) (by decide +kernel) x

theorem Filter.readOne_errs : Errs (FrameError mode 8) (Filter.readOne mode) := by
  have h : ∀ e, ContentError mode e → FrameError mode 8 e := fun _ => .inl
  unfold Filter.readOne
  refine .bind (.read_mqtt_string h) fun s => .bind (.read_u8 h) fun x => ?_
  have hq : Errs (FrameError mode 8) (qosOrErr (x &&& 0b00000011)) :=
    .qosOrErr (rule_lt x).2 (.inr (.inl rfl))
  have := (rule_lt x).1
  simp only
  generalize ((x >>> 4) &&& 0b00000011 : UInt8) = y at this
  split
  · exact .bind (.pure _) fun _ => .bind hq fun _ => .pure _
  · exact .bind (.pure _) fun _ => .bind hq fun _ => .pure _
  · exact .bind (.pure _) fun _ => .bind hq fun _ => .pure _
  · next h0 h1 h2 =>
    have h3 : y = 3 := UInt8.toNat_inj.1 (by
      show y.toNat = 3
      have h0 : y.toNat ≠ 0 := h0
      have h1 : y.toNat ≠ 1 := h1
      have h2 : y.toNat ≠ 2 := h2
      omega)
    exact .bind (.throwE (h3 ▸ .inr (.inr (.inl rfl)))) fun _ => .bind hq fun _ => .pure _

theorem Filter.readLoop_errs (fuel : Nat) (acc : List Filter) :
    Errs (FrameError mode 8) (Filter.readLoop mode fuel acc) := by
  induction fuel generalizing acc with
  | zero => exact .diverge
  | succ fuel ih =>
    exact .bind .getBuf fun _ => .ite (fun _ => .pure _) fun _ =>
      .bind Filter.readOne_errs fun _ => ih _

theorem Subscribe.read_errs (fh : FixedHeader) :
    Errs (FrameError mode 8) (Subscribe.read mode fh) := by
  have h : ∀ e, ContentError mode e → FrameError mode 8 e := fun _ => .inl
  refine .bind (.advance _) fun _ => .bind (.read_u16 h) fun _ =>
    .bind (.props h (SubscribeProperties.read_eq mode)) fun _ =>
      .bind (.bind .getBuf fun _ => Filter.readLoop_errs _ _) fun _ => ?_
  split
  · exact .throwE (.inr (.inr (.inr rfl)))
  · exact .pure _

theorem ConnectReturnCode.err {x : UInt8} {e : Err} (h : ConnectReturnCode.ofU8 x = .err e) :
    (∀ r, connAckCode r ≠ some x) ∧ e = .InvalidConnectReturnCode x := by
  constructor
  · intro r hr
    rw [ConnectReturnCode.ofU8_ok.2 hr] at h; simp at h
  · rcases ConnectReturnCode.ofU8_spec x with ⟨r, h', -⟩ | h'
    · rw [h'] at h; simp at h
    · rw [h'] at h; simp at h; exact h.symm

theorem ConnAck.read_errs (fh : FixedHeader) : Errs (FrameError mode 2) (ConnAck.read mode fh) :=
  have h : ∀ e, ContentError mode e → FrameError mode 2 e := fun _ => .inl
  .bind (.advance _) fun _ => .bind (.read_u8 h) fun _ => .bind (.read_u8 h) fun _ =>
    .bind (.props h (ConnAckProperties.read_eq mode)) fun _ =>
      .bind (.liftOut fun _ he => .inr ⟨_, ConnectReturnCode.err he⟩) fun _ => .pure _

theorem Disconnect.read_errs (fh : FixedHeader) (ht : fh.byte1.toNat / 16 = 14) :
    Errs (FrameError mode 14) (Disconnect.read mode fh) :=
  have h : ∀ e, ContentError mode e → FrameError mode 14 e := fun _ => .inl
  have hc := Errs.code DisconnectReasonCode.ofU8_spec (fun _ _ => DisconnectReasonCode.ofU8_ok)
    (S := FrameError mode 14) (fun _ => .inr)
  .bind (.advance _) fun _ => .ite
    (fun hne => absurd (UInt8.toNat_inj.1 (by rw [(bits_disconnect _).1, ht]; rfl)) hne) fun _ =>
    .ite (fun _ => .throwE (h _ (.inl rfl))) fun _ => .ite (fun _ => .pure _) fun _ =>
      .bind (.read_u8 h) fun _ => .bind (hc _) fun _ =>
        .bind (.props h (DisconnectProperties.read_eq mode)) fun _ => .pure _

theorem Publish.read_errs (fh : FixedHeader) : Errs (FrameError mode 3) (Publish.read mode fh) := by
  have h : ∀ e, ContentError mode e → FrameError mode 3 e := fun _ => .inl
  unfold Publish.read
  refine .bind (.qosOrErr ?_ (.inr (.inl rfl))) fun q => .bind (.advance _) fun _ =>
    .bind (.read_mqtt_string h) fun _ => ?_
  · rw [(bits_publish _).1]; omega
  · cases q
    case AtMostOnce =>
      exact .bind (.pure _) fun _ => .ite (fun _ => .throwE (.inr (.inr rfl))) fun _ =>
        .bind (.props h (PublishProperties.read_eq mode)) fun _ => .bind .getBuf fun _ => .pure _
    all_goals
      exact .bind (.read_u16 h) fun _ => .ite (fun _ => .throwE (.inr (.inr rfl))) fun _ =>
        .bind (.props h (PublishProperties.read_eq mode)) fun _ => .bind .getBuf fun _ => .pure _

theorem Connect.read_errs (fh : FixedHeader) : Errs (FrameError mode 1) (Connect.read mode fh) := by
  have h : ∀ e, ContentError mode e → FrameError mode 1 e := fun _ => .inl
  have hw : ∀ x, Errs (FrameError mode 1) (LastWill.read mode x) := fun x =>
    .ite (fun _ => .ite (fun _ => .throwE (.inr (.inr (.inr (.inl rfl))))) fun _ => .pure _) fun _ =>
      .bind (.props h (LastWillProperties.read_eq mode)) fun _ =>
        .bind (.read_mqtt_bytes h) fun _ => .bind (.read_mqtt_bytes h) fun _ =>
          .bind (.qosOrErr (by rw [(bits_connect x).2.2.2.1]; omega)
            (.inr (.inr (.inr (.inr rfl))))) fun _ => .pure _
  have hl : ∀ x, Errs (FrameError mode 1) (Login.read mode x) := fun x =>
    .bind (.ite (fun _ => .pure _) fun _ => .read_mqtt_string h) fun _ =>
      .bind (.ite (fun _ => .pure _) fun _ => .read_mqtt_string h) fun _ =>
        .ite (fun _ => .pure _) fun _ => .pure _
  exact .bind (.advance _) fun _ => .bind (.read_mqtt_string h) fun _ =>
    .bind (.read_u8 h) fun _ => .ite (fun _ => .throwE (.inr (.inl rfl))) fun _ =>
      .ite (fun hne => .throwE (.inr (.inr (.inl ⟨_, hne, rfl⟩)))) fun _ =>
        .bind (.read_u8 h) fun x => .bind (.read_u16 h) fun _ =>
          .bind (.props h (ConnectProperties.read_eq mode)) fun _ =>
            .bind (.read_mqtt_string h) fun _ => .bind (hw x) fun _ => .bind (hl x) fun _ => .pure _

theorem Errs.onOwned {α : Type} {m : M α} (h : Errs S m) (b : Bytes) : Errs S (onOwned b m) := by
  refine .liftOut fun e he => ?_
  exact h b e (m b).2 (by rw [← he])

theorem readBody_errs {fh : FixedHeader} {ty : PacketType} (ht : fh.packet_type = .ok ty)
    (b : Bytes) : Errs (FrameError mode ty.toU8.toNat) (Packet.readBody mode fh ty b) := by
  rw [packet_type_ok] at ht
  cases ty <;> unfold Packet.readBody
  case Connect => exact .bind (.onOwned (Connect.read_errs fh) b) fun _ => .pure _
  case ConnAck => exact .bind (.onOwned (ConnAck.read_errs fh) b) fun _ => .pure _
  case Publish => exact .bind (.onOwned (Publish.read_errs fh) b) fun _ => .pure _
  case PubAck => exact .bind (.onOwned (PubAck.read_errs fh) b) fun _ => .pure _
  case PubRec => exact .bind (.onOwned (PubRec.read_errs fh) b) fun _ => .pure _
  case PubRel => exact .bind (.onOwned (PubRel.read_errs fh) b) fun _ => .pure _
  case PubComp => exact .bind (.onOwned (PubComp.read_errs fh) b) fun _ => .pure _
  case Subscribe => exact .bind (.onOwned (Subscribe.read_errs fh) b) fun _ => .pure _
  case SubAck => exact .bind (.onOwned (SubAck.read_errs fh) b) fun _ => .pure _
  case Unsubscribe => exact .bind (.onOwned (Unsubscribe.read_errs fh) b) fun _ => .pure _
  case UnsubAck => exact .bind (.onOwned (UnsubAck.read_errs fh) b) fun _ => .pure _
  case PingReq => exact .pure _
  case PingResp => exact .pure _
  case Disconnect => exact .bind (.onOwned (Disconnect.read_errs fh ht) b) fun _ => .pure _

/-- The errors of a complete frame. -/
theorem frameOut_err {b1 : UInt8} {v body : Bytes} {e : Err} (h : frameOut mode b1 v body = .err e) :
    ((b1.toNat / 16 = 0 ∨ b1.toNat / 16 = 15) ∧ e = .InvalidPacketType (b1 >>> 4)) ∨
    (1 ≤ b1.toNat / 16 ∧ b1.toNat / 16 ≤ 11 ∧ body = [] ∧ e = .PayloadRequired) ∨
    ((body ≠ [] ∨ b1.toNat / 16 = 14) ∧ FrameError mode (b1.toNat / 16) e) := by
  unfold frameOut at h
  rcases packet_type_cases (FixedHeader.new b1 v.length body.length) with ⟨ty, ht⟩ | ⟨h0, h1⟩
  · rw [ht, liftOut_ok, pure_bind] at h
    have ht' := packet_type_ok.1 ht
    have hb : (FixedHeader.new b1 v.length body.length).byte1 = b1 := rfl
    rw [hb] at ht'
    by_cases h0 : body.length = 0 ∧ ty ≠ .Disconnect
    · rw [if_pos h0] at h
      right; left
      rw [ht']
      have hnil := List.length_eq_zero_iff.1 h0.1
      cases ty <;> simp_all <;> decide
    · rw [if_neg h0] at h
      right; right
      rcases hp : Packet.readBody mode (FixedHeader.new b1 v.length body.length) ty
        (b1 :: (v ++ body)) [] with ⟨o, b'⟩
      rw [hp] at h
      simp only at h
      subst h
      refine ⟨?_, ?_⟩
      · by_cases hb : body = []
        · right
          have : ty = .Disconnect := Classical.byContradiction fun h => h0 ⟨by simp [hb], h⟩
          rw [ht', this]; rfl
        · exact .inl hb
      · rw [ht']; exact readBody_errs ht _ _ _ _ hp
  · rw [h1] at h
    simp at h
    exact .inl ⟨h0, h.symm⟩

end Mqtt
