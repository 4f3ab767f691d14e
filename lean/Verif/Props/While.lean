import Verif.Proofs.While
/-
C13: the loops of the decoder are the `while` loops of the source, and each of them ends. The model
executes them with fuel taken from the length of the buffer; here the same results are obtained from
the fuel-free execution of `Spec/While.lean`.
-/
namespace Props

open Mqtt Spec

/-- C13: an execution of a loop has one outcome. -/
theorem C13_while_unique {σ : Type} {cond : σ → Bytes → Prop} {body : σ → M σ} {s : σ} {b : Bytes}
    {r r' : Out σ × Bytes} (h : While cond body s b r) (h' : While cond body s b r') : r = r' :=
  h.unique h'

/-- C13: each of the thirteen property loops is `while cursor < properties_len { … }`: it ends on
every buffer, and with the outcome the loop with fuel has. -/
theorem C13_property_loops (mode : StrMode) :
    IsWhile (ConnectProperties.step mode) ∧
    IsWhile (LastWillProperties.step mode) ∧
    IsWhile (ConnAckProperties.step mode) ∧
    IsWhile (PublishProperties.step mode) ∧
    IsWhile (PubAckProperties.step mode) ∧
    IsWhile (PubRecProperties.step mode) ∧
    IsWhile (PubRelProperties.step mode) ∧
    IsWhile (PubCompProperties.step mode) ∧
    IsWhile (SubscribeProperties.step mode) ∧
    IsWhile (SubAckProperties.step mode) ∧
    IsWhile (UnsubscribeProperties.step mode) ∧
    IsWhile (UnsubAckProperties.step mode) ∧
    IsWhile (DisconnectProperties.step mode) :=
  ⟨isWhile (ConnectProperties.shrinks mode) (ConnectProperties.noDiv mode),
   isWhile (LastWillProperties.shrinks mode) (LastWillProperties.noDiv mode),
   isWhile (ConnAckProperties.shrinks mode) (ConnAckProperties.noDiv mode),
   isWhile (PublishProperties.shrinks mode) (PublishProperties.noDiv mode),
   isWhile (PubAckProperties.shrinks mode) (PubAckProperties.noDiv mode),
   isWhile (PubRecProperties.shrinks mode) (PubRecProperties.noDiv mode),
   isWhile (PubRelProperties.shrinks mode) (PubRelProperties.noDiv mode),
   isWhile (PubCompProperties.shrinks mode) (PubCompProperties.noDiv mode),
   isWhile (SubscribeProperties.shrinks mode) (SubscribeProperties.noDiv mode),
   isWhile (SubAckProperties.shrinks mode) (SubAckProperties.noDiv mode),
   isWhile (UnsubscribeProperties.shrinks mode) (UnsubscribeProperties.noDiv mode),
   isWhile (UnsubAckProperties.shrinks mode) (UnsubAckProperties.noDiv mode),
   isWhile (DisconnectProperties.shrinks mode) (DisconnectProperties.noDiv mode)⟩

/-- C13: `Filter::read` is the loop `while bytes.has_remaining()` over `Filter::read`'s body. -/
theorem C13_filters_loop (mode : StrMode) (b : Bytes) (r : Out (List Filter) × Bytes) :
    Filter.read mode b = r ↔ Entries (Filter.readOne mode) b r := by
  rw [← entries_iff (Takes.filter mode) Filter.good_readOne.noDiv,
    ← loopF_list _ (Filter.readLoop mode) (fun _ => rfl) (fun _ _ => rfl)]
  rfl

/-- C13: the loop of `Unsubscribe::read`. -/
theorem C13_unsubscribe_loop (mode : StrMode) (b : Bytes) (r : Out (List MqttString) × Bytes) :
    Unsubscribe.readLoop mode (b.length + 1) [] b = r ↔ Entries (read_mqtt_string mode) b r := by
  rw [← entries_iff (Takes.read_mqtt_string mode) (Good.read_mqtt_string mode).noDiv,
    ← loopF_list _ (Unsubscribe.readLoop mode) (fun _ => rfl) (fun _ _ => rfl)]

/-- C13: the loop of `SubAck::read`. -/
theorem C13_suback_loop (b : Bytes) (r : Out (List SubscribeReasonCode) × Bytes) :
    SubAck.readLoop (b.length + 1) [] b = r ↔
      Entries (do let c ← read_u8; liftOut (SubscribeReasonCode.ofU8 c)) b r := by
  rw [← entries_iff (Takes.read_u8.bind fun _ => Shrinks.liftOut _)
      (Good.read_u8.noDiv.bind fun c => NoDiv.liftOut ?_),
    ← loopF_list _ SubAck.readLoop (fun _ => rfl) (fun fuel acc => ?_)]
  · rw [SubAck.readLoop]; simp only [bind_assoc]
  · unfold SubscribeReasonCode.ofU8; split <;> simp

/-- C13: the loop of `UnsubAck::read`. -/
theorem C13_unsuback_loop (b : Bytes) (r : Out (List UnsubAckReason) × Bytes) :
    UnsubAck.readLoop (b.length + 1) [] b = r ↔
      Entries (do let c ← read_u8; liftOut (UnsubAckReason.ofU8 c)) b r := by
  rw [← entries_iff (Takes.read_u8.bind fun _ => Shrinks.liftOut _)
      (Good.read_u8.noDiv.bind fun c => NoDiv.liftOut ?_),
    ← loopF_list _ UnsubAck.readLoop (fun _ => rfl) (fun fuel acc => ?_)]
  · rw [UnsubAck.readLoop]; simp only [bind_assoc]
  · unfold UnsubAckReason.ofU8; split <;> simp

/-- Two filters are read and the buffer is empty. -/
example : Entries (read_mqtt_string .utf8) [0, 1, 97, 0, 1, 98] (.ok [[97], [98]], []) :=
  (C13_unsubscribe_loop _ _ _).1 (by decide +kernel)

/-- The same run, step by step. -/
example : Entries (read_mqtt_string .utf8) [0, 1, 97, 0, 1, 98] (.ok [[97], [98]], []) :=
  .next (s' := [[97]]) (b' := [0, 1, 98]) (by simp) (by decide +kernel)
    (.next (s' := [[97], [98]]) (b' := []) (by simp) (by decide +kernel) (.done (by simp)))

/-- A loop whose body takes nothing has no execution. -/
example (r : Out Unit × Bytes) : ¬ While (fun _ b => b ≠ []) (fun _ b => (.ok (), b)) () [0] r := by
  intro h
  generalize hb : ([0] : Bytes) = b at h
  generalize () = u at h
  induction h with
  | done hc => subst hb; simp at hc
  | next _ he _ ih => simp only [Prod.mk.injEq] at he; exact ih (hb.trans he.2)
  | error _ he => simp at he
  | panic _ he => simp at he

end Props
