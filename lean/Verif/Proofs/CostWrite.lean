import Verif.Model.CostWrite
import Verif.Proofs.Cost
import Verif.Spec.Work
/-
The counting encoder computes what the encoder computes, and its count is linear.
-/
set_option linter.unusedSimpArgs false

namespace Mqtt

open MC (lift tick erase)

/-! ### Forgetting the count -/

theorem erase_ticks (n : Nat) : erase (ticks n) = pure () := rfl

theorem erase_optTicks {σ : Type} (n : σ → Nat) (o : Option σ) :
    erase (optTicks n o) = pure () := by cases o <;> rfl

theorem erase_writeRemLoopC : ∀ fuel x count,
    erase (writeRemLoopC fuel x count) = writeRemLoop fuel x count := by
  intro fuel
  induction fuel with
  | zero => intro _ _; rfl
  | succ fuel ih =>
    intro x count
    simp only [writeRemLoopC, writeRemLoop, erase_bind, erase_ite, erase_pure, erase_lift, erase_tick,
      pure_bind, ih]

theorem erase_remC (n : Nat) : erase (write_remaining_lengthC n) = write_remaining_length n := by
  simp only [write_remaining_lengthC, write_remaining_length, erase_ite, erase_lift,
    erase_writeRemLoopC]

theorem erase_optPropsC {σ : Type} {writeC : σ → MC Unit} {write : σ → M Unit}
    (h : ∀ p, erase (writeC p) = write p) (o : Option σ) :
    erase (writeOptPropsC writeC o) = writeOptProps write o := by
  cases o with
  | none => simp only [writeOptPropsC, writeOptProps, erase_bind, erase_remC, erase_pure]
  | some p => exact h p

theorem erase_userPropsC (l : List (MqttString × MqttString)) :
    erase (writeUserPropsC l) = writeUserProps l := by
  induction l with
  | nil => rfl
  | cons x l ih =>
    simp only [writeUserPropsC, writeUserProps, erase_bind, erase_lift, erase_tick, pure_bind, ih]

theorem erase_subIdsC (l : List Nat) :
    erase (writeSubIdsC l) = PublishProperties.writeSubIds l := by
  induction l with
  | nil => rfl
  | cons x l ih =>
    simp only [writeSubIdsC, PublishProperties.writeSubIds, erase_bind, erase_lift, erase_tick,
      erase_remC, pure_bind, ih]

theorem erase_writeAllC (l : List Filter) : erase (Filter.writeAllC l) = Filter.writeAll l := by
  induction l with
  | nil => rfl
  | cons x l ih =>
    simp only [Filter.writeAllC, Filter.writeAll, erase_bind, erase_lift, erase_tick, pure_bind, ih]

theorem erase_writeFiltersC (l : List MqttString) :
    erase (Unsubscribe.writeFiltersC l) = Unsubscribe.writeFilters l := by
  induction l with
  | nil => rfl
  | cons x l ih =>
    simp only [Unsubscribe.writeFiltersC, Unsubscribe.writeFilters, erase_bind, erase_lift,
      erase_tick, pure_bind, ih]

/-- The rules for `erase`, encoder. -/
macro "erase_w" "[" t:Lean.Parser.Tactic.simpLemma,* "]" : tactic =>
  `(tactic| simp only [erase_ite, erase_bind, erase_pure, erase_lift, erase_tick, erase_ticks,
      erase_optTicks, erase_remC, erase_userPropsC, erase_subIdsC, erase_writeAllC,
      erase_writeFiltersC, pure_bind, $t,*])

theorem ConnectProperties.erase_writeC (p : ConnectProperties) : erase p.writeC = p.write := by
  erase_w [ConnectProperties.writeC, ConnectProperties.write, ConnectProperties.lenC]

theorem LastWillProperties.erase_writeC (p : LastWillProperties) : erase p.writeC = p.write := by
  erase_w [LastWillProperties.writeC, LastWillProperties.write, LastWillProperties.lenC]

theorem ConnAckProperties.erase_writeC (p : ConnAckProperties) : erase p.writeC = p.write := by
  erase_w [ConnAckProperties.writeC, ConnAckProperties.write, ConnAckProperties.lenC]

theorem PublishProperties.erase_writeC (p : PublishProperties) : erase p.writeC = p.write := by
  erase_w [PublishProperties.writeC, PublishProperties.write, PublishProperties.lenC]

theorem PubAckProperties.erase_writeC (p : PubAckProperties) : erase p.writeC = p.write := by
  erase_w [PubAckProperties.writeC, PubAckProperties.write, PubAckProperties.lenC]

theorem PubRecProperties.erase_writeC (p : PubRecProperties) : erase p.writeC = p.write := by
  erase_w [PubRecProperties.writeC, PubRecProperties.write, PubRecProperties.lenC]

theorem PubRelProperties.erase_writeC (p : PubRelProperties) : erase p.writeC = p.write := by
  erase_w [PubRelProperties.writeC, PubRelProperties.write, PubRelProperties.lenC]

theorem PubCompProperties.erase_writeC (p : PubCompProperties) : erase p.writeC = p.write := by
  erase_w [PubCompProperties.writeC, PubCompProperties.write, PubCompProperties.lenC]

theorem SubscribeProperties.erase_writeC (p : SubscribeProperties) : erase p.writeC = p.write := by
  erase_w [SubscribeProperties.writeC, SubscribeProperties.write, SubscribeProperties.lenC]
  cases p.id <;> erase_w []

theorem SubAckProperties.erase_writeC (p : SubAckProperties) : erase p.writeC = p.write := by
  erase_w [SubAckProperties.writeC, SubAckProperties.write, SubAckProperties.lenC]

theorem UnsubscribeProperties.erase_writeC (p : UnsubscribeProperties) : erase p.writeC = p.write := by
  erase_w [UnsubscribeProperties.writeC, UnsubscribeProperties.write, UnsubscribeProperties.lenC]

theorem UnsubAckProperties.erase_writeC (p : UnsubAckProperties) : erase p.writeC = p.write := by
  erase_w [UnsubAckProperties.writeC, UnsubAckProperties.write, UnsubAckProperties.lenC]

theorem DisconnectProperties.erase_writeC (p : DisconnectProperties) : erase p.writeC = p.write := by
  erase_w [DisconnectProperties.writeC, DisconnectProperties.write, DisconnectProperties.lenC]

theorem LastWill.erase_writeC (x : LastWill) : erase x.writeC = x.write := by
  erase_w [LastWill.writeC, LastWill.write, erase_optPropsC LastWillProperties.erase_writeC]

theorem Connect.erase_writeC (c : Connect) (w : Option LastWill) (l : Option Login) :
    erase (c.writeC w l) = c.write w l := by
  cases w <;> cases l <;>
    erase_w [Connect.writeC, Connect.write, Connect.lenC, LastWill.erase_writeC,
      erase_optPropsC ConnectProperties.erase_writeC, bind_assoc]

theorem ConnAck.erase_writeC (p : ConnAck) : erase p.writeC = p.write := by
  erase_w [ConnAck.writeC, ConnAck.write, ConnAck.lenC, erase_optPropsC ConnAckProperties.erase_writeC, bind_assoc]

theorem Publish.erase_writeC (p : Publish) : erase p.writeC = p.write := by
  erase_w [Publish.writeC, Publish.write, Publish.lenC, erase_optPropsC PublishProperties.erase_writeC, bind_assoc]

theorem PubAck.erase_writeC (p : PubAck) : erase p.writeC = p.write := by
  erase_w [PubAck.writeC, PubAck.write, PubAck.lenC, erase_optPropsC PubAckProperties.erase_writeC, bind_assoc]

theorem PubRec.erase_writeC (p : PubRec) : erase p.writeC = p.write := by
  erase_w [PubRec.writeC, PubRec.write, PubRec.lenC, erase_optPropsC PubRecProperties.erase_writeC, bind_assoc]

theorem PubRel.erase_writeC (p : PubRel) : erase p.writeC = p.write := by
  erase_w [PubRel.writeC, PubRel.write, PubRel.lenC, erase_optPropsC PubRelProperties.erase_writeC, bind_assoc]

theorem PubComp.erase_writeC (p : PubComp) : erase p.writeC = p.write := by
  erase_w [PubComp.writeC, PubComp.write, PubComp.lenC, erase_optPropsC PubCompProperties.erase_writeC, bind_assoc]

theorem Subscribe.erase_writeC (p : Subscribe) : erase p.writeC = p.write := by
  erase_w [Subscribe.writeC, Subscribe.write, Subscribe.lenC, erase_optPropsC SubscribeProperties.erase_writeC, bind_assoc]

theorem SubAck.erase_writeC (p : SubAck) : erase p.writeC = p.write := by
  erase_w [SubAck.writeC, SubAck.write, SubAck.lenC, erase_optPropsC SubAckProperties.erase_writeC, bind_assoc]

theorem Unsubscribe.erase_writeC (p : Unsubscribe) : erase p.writeC = p.write := by
  erase_w [Unsubscribe.writeC, Unsubscribe.write, Unsubscribe.lenC, erase_optPropsC UnsubscribeProperties.erase_writeC, bind_assoc]

theorem UnsubAck.erase_writeC (p : UnsubAck) : erase p.writeC = p.write := by
  erase_w [UnsubAck.writeC, UnsubAck.write, UnsubAck.lenC, erase_optPropsC UnsubAckProperties.erase_writeC, bind_assoc]

theorem Disconnect.erase_writeC (p : Disconnect) : erase p.writeC = p.write := by
  erase_w [Disconnect.writeC, Disconnect.write, Disconnect.lenC, erase_optPropsC DisconnectProperties.erase_writeC, bind_assoc]

theorem Packet.erase_writeC (p : Packet) : erase p.writeC = p.write := by
  cases p with
  | ConnAck p => exact ConnAck.erase_writeC p
  | Publish p => exact Publish.erase_writeC p
  | PubAck p => exact PubAck.erase_writeC p
  | PubRec p => exact PubRec.erase_writeC p
  | PubRel p => exact PubRel.erase_writeC p
  | PubComp p => exact PubComp.erase_writeC p
  | Subscribe p => exact Subscribe.erase_writeC p
  | SubAck p => exact SubAck.erase_writeC p
  | Unsubscribe p => exact Unsubscribe.erase_writeC p
  | UnsubAck p => exact UnsubAck.erase_writeC p
  | Disconnect p => exact Disconnect.erase_writeC p
  | Connect c w l => exact Connect.erase_writeC c w l
  | PingReq => rfl
  | PingResp => rfl

end Mqtt
