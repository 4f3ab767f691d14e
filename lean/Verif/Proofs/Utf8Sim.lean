import Verif.Proofs.Typed
import Verif.Proofs.Errors
/-
Reading with UTF-8 strings compared with reading with binary strings.
-/
set_option linter.unusedSimpArgs false

namespace Mqtt

open Spec

variable {α β : Type}

/-- `m` is `m'`, or refuses a string. -/
def Sim (m m' : M α) : Prop := ∀ b, m b = m' b ∨ ∃ b', m b = (.err .TopicNotUtf8, b')

namespace Sim

theorem refl (m : M α) : Sim m m := fun _ => .inl rfl

theorem bind {m m' : M α} {f f' : α → M β} (h1 : Sim m m') (h2 : ∀ a, Sim (f a) (f' a)) :
    Sim (m >>= f) (m' >>= f') := by
  intro b
  rcases h1 b with h | ⟨b', h⟩
  · rw [M.bind_apply, M.bind_apply, h]
    rcases m' b with ⟨o, b1⟩
    cases o with
    | ok a => exact h2 a b1
    | err e => exact .inl rfl
    | panic => exact .inl rfl
    | diverge => exact .inl rfl
  · exact .inr ⟨b', M.bind_err h⟩

theorem bindr {m : M α} {f f' : α → M β} (h2 : ∀ a, Sim (f a) (f' a)) :
    Sim (m >>= f) (m >>= f') := bind (refl m) h2

theorem ite {c : Prop} [Decidable c] {m1 m2 m1' m2' : M α} (h1 : Sim m1 m1') (h2 : Sim m2 m2') :
    Sim (if c then m1 else m2) (if c then m1' else m2') := by
  split <;> assumption

theorem string : Sim (read_mqtt_string .utf8) (read_mqtt_string .binary) := by
  intro b
  by_cases h : ∃ s r, read_mqtt_string .binary b = (.ok s, r)
  · obtain ⟨s, r, h⟩ := h
    obtain ⟨rfl, hl, -⟩ := read_mqtt_string_ok.1 h
    by_cases hu : IsUtf8 s
    · exact .inl ((parses_string hl (fun _ => hu) r).trans (parses_string hl (by intro h; cases h) r).symm)
    · exact .inr ⟨_, read_mqtt_string_bad hl hu r⟩
  · left
    unfold read_mqtt_string at h ⊢
    rw [M.bind_apply] at h ⊢
    rw [M.bind_apply]
    rcases hb : read_mqtt_bytes b with ⟨o, b1⟩
    rw [hb] at h
    cases o with
    | ok a => exact absurd ⟨a, b1, rfl⟩ h
    | err e => rfl
    | panic => rfl
    | diverge => rfl

theorem readVal (ty : PropertyType) : Sim (readVal .utf8 ty) (readVal .binary ty) := by
  cases ty <;>
    first
    | exact refl _
    | exact bind string fun _ => refl _
    | exact bind string fun _ => bind string fun _ => refl _

theorem gLoop (ids : List UInt8) (plen : Nat) : ∀ (fuel c : Nat) (l : List Property),
    Sim (gLoop .utf8 ids plen fuel c l) (gLoop .binary ids plen fuel c l) := by
  intro fuel
  induction fuel with
  | zero => intro c l; exact refl _
  | succ fuel ih =>
    intro c l
    exact ite (bindr fun _ => bindr fun ty => ite (bind (readVal ty) fun _ => ih _ _) (refl _))
      (refl _)

theorem gRead (ids : List UInt8) : Sim (gRead .utf8 ids) (gRead .binary ids) :=
  bindr fun _ => bindr fun _ => ite (refl _) (bindr fun _ => bind (gLoop _ _ _ _ _) fun _ => refl _)

theorem props {σ : Type} {ids : List UInt8} {read : StrMode → M (Option σ)}
    {ofList : List Property → σ}
    (h : ∀ mode, read mode = Mqtt.gRead mode ids >>= fun o => pure (o.map ofList)) :
    Sim (read .utf8) (read .binary) := by
  rw [h, h]; exact bind (gRead ids) fun _ => refl _

end Sim

theorem PubAck.sim (fh : FixedHeader) : Sim (PubAck.read .utf8 fh) (PubAck.read .binary fh) :=
  .bindr fun _ => .bindr fun _ => .ite (.refl _) (.bindr fun _ => .ite (.refl _)
    (.bind (.props PubAckProperties.read_eq) fun _ => .refl _))

theorem PubRec.sim (fh : FixedHeader) : Sim (PubRec.read .utf8 fh) (PubRec.read .binary fh) :=
  .bindr fun _ => .bindr fun _ => .ite (.refl _) (.bindr fun _ => .ite (.refl _)
    (.bind (.props PubRecProperties.read_eq) fun _ => .refl _))

theorem PubRel.sim (fh : FixedHeader) : Sim (PubRel.read .utf8 fh) (PubRel.read .binary fh) :=
  .bindr fun _ => .bindr fun _ => .ite (.refl _) (.bindr fun _ => .ite (.refl _)
    (.bind (.props PubRelProperties.read_eq) fun _ => .refl _))

theorem PubComp.sim (fh : FixedHeader) : Sim (PubComp.read .utf8 fh) (PubComp.read .binary fh) :=
  .bindr fun _ => .bindr fun _ => .ite (.refl _) (.bindr fun _ => .ite (.refl _)
    (.bind (.props PubCompProperties.read_eq) fun _ => .refl _))

theorem SubAck.sim (fh : FixedHeader) : Sim (SubAck.read .utf8 fh) (SubAck.read .binary fh) :=
  .bindr fun _ => .bindr fun _ => .bind (.props SubAckProperties.read_eq) fun _ => .refl _

theorem UnsubAck.sim (fh : FixedHeader) : Sim (UnsubAck.read .utf8 fh) (UnsubAck.read .binary fh) :=
  .bindr fun _ => .bindr fun _ => .bind (.props UnsubAckProperties.read_eq) fun _ => .refl _

theorem Unsubscribe.simLoop : ∀ (fuel : Nat) (acc : List MqttString),
    Sim (Unsubscribe.readLoop .utf8 fuel acc) (Unsubscribe.readLoop .binary fuel acc) := by
  intro fuel
  induction fuel with
  | zero => intro acc; exact .refl _
  | succ fuel ih =>
    intro acc
    exact .bindr fun _ => .ite (.refl _) (.bind .string fun _ => ih _)

theorem Unsubscribe.sim (fh : FixedHeader) :
    Sim (Unsubscribe.read .utf8 fh) (Unsubscribe.read .binary fh) :=
  .bindr fun _ => .bindr fun _ => .bind (.props UnsubscribeProperties.read_eq) fun _ =>
    .bindr fun _ => .bind (Unsubscribe.simLoop _ _) fun _ => .refl _

theorem Filter.simOne : Sim (Filter.readOne .utf8) (Filter.readOne .binary) := by
  rw [Filter.readOne_eq, Filter.readOne_eq]
  exact .bind .string fun _ => .refl _

theorem Filter.simLoop : ∀ (fuel : Nat) (acc : List Filter),
    Sim (Filter.readLoop .utf8 fuel acc) (Filter.readLoop .binary fuel acc) := by
  intro fuel
  induction fuel with
  | zero => intro acc; exact .refl _
  | succ fuel ih =>
    intro acc
    exact .bindr fun _ => .ite (.refl _) (.bind Filter.simOne fun _ => ih _)

theorem Subscribe.sim (fh : FixedHeader) :
    Sim (Subscribe.read .utf8 fh) (Subscribe.read .binary fh) :=
  .bindr fun _ => .bindr fun _ => .bind (.props SubscribeProperties.read_eq) fun _ =>
    .bind (.bindr fun _ => Filter.simLoop _ _) fun _ => .refl _

theorem ConnAck.sim (fh : FixedHeader) : Sim (ConnAck.read .utf8 fh) (ConnAck.read .binary fh) :=
  .bindr fun _ => .bindr fun _ => .bindr fun _ => .bind (.props ConnAckProperties.read_eq) fun _ =>
    .refl _

theorem Disconnect.sim (fh : FixedHeader) :
    Sim (Disconnect.read .utf8 fh) (Disconnect.read .binary fh) :=
  .bindr fun _ => .ite (.refl _) (.ite (.refl _) (.ite (.refl _) (.bindr fun _ => .bindr fun _ =>
    .bind (.props DisconnectProperties.read_eq) fun _ => .refl _)))

theorem Publish.sim (fh : FixedHeader) : Sim (Publish.read .utf8 fh) (Publish.read .binary fh) := by
  rw [Publish.read_eq, Publish.read_eq]
  exact .bindr fun _ => .bindr fun _ => .bind .string fun _ => .bindr fun _ => .ite (.refl _)
    (.bind (.props PublishProperties.read_eq) fun _ => .refl _)

theorem Connect.sim (fh : FixedHeader) : Sim (Connect.read .utf8 fh) (Connect.read .binary fh) :=
  .bindr fun _ => .bind .string fun _ => .bindr fun _ => .ite (.refl _) (.ite (.refl _)
    (.bindr fun _ => .bindr fun _ => .bind (.props ConnectProperties.read_eq) fun _ =>
      .bind .string fun _ =>
      .bind (.ite (.refl _) (.bind (.props LastWillProperties.read_eq) fun _ => .refl _)) fun _ =>
      .bind (.bind (.ite (.refl _) .string) fun _ => .bind (.ite (.refl _) .string) fun _ =>
        .refl _) fun _ => .refl _))

theorem Sim.onOwned {m m' : M α} (h : Sim m m') (b : Bytes) : Sim (onOwned b m) (onOwned b m') := by
  intro b'
  unfold Mqtt.onOwned
  rcases h b with h | ⟨b1, h⟩
  · exact .inl (by rw [h])
  · exact .inr ⟨b', by rw [h]; rfl⟩

theorem readBody_sim (fh : FixedHeader) (ty : PacketType) (p : Bytes) :
    Sim (Packet.readBody .utf8 fh ty p) (Packet.readBody .binary fh ty p) := by
  cases ty
  case Connect => exact .bind ((Connect.sim fh).onOwned p) fun _ => .refl _
  case ConnAck => exact .bind ((ConnAck.sim fh).onOwned p) fun _ => .refl _
  case Publish => exact .bind ((Publish.sim fh).onOwned p) fun _ => .refl _
  case PubAck => exact .bind ((PubAck.sim fh).onOwned p) fun _ => .refl _
  case PubRec => exact .bind ((PubRec.sim fh).onOwned p) fun _ => .refl _
  case PubRel => exact .bind ((PubRel.sim fh).onOwned p) fun _ => .refl _
  case PubComp => exact .bind ((PubComp.sim fh).onOwned p) fun _ => .refl _
  case Subscribe => exact .bind ((Subscribe.sim fh).onOwned p) fun _ => .refl _
  case SubAck => exact .bind ((SubAck.sim fh).onOwned p) fun _ => .refl _
  case Unsubscribe => exact .bind ((Unsubscribe.sim fh).onOwned p) fun _ => .refl _
  case UnsubAck => exact .bind ((UnsubAck.sim fh).onOwned p) fun _ => .refl _
  case PingReq => exact .refl _
  case PingResp => exact .refl _
  case Disconnect => exact .bind ((Disconnect.sim fh).onOwned p) fun _ => .refl _

theorem read_sim (max : Option Nat) : Sim (Packet.read .utf8 max) (Packet.read .binary max) :=
  .bindr fun _ => .bindr fun _ => .bindr fun _ => .bindr fun _ => .ite (.refl _)
    (readBody_sim _ _ _)

end Mqtt
