import Verif.Proofs.CostBound
import Verif.Spec.Work
/-
The count is at least the number of list entries of the packet read.
-/
set_option linter.unusedSimpArgs false

namespace Mqtt

open MC (lift tick)

/-- Whatever is returned measures at most `k`. -/
def Up {α : Type} (k : Nat) (ν : α → Nat) (m : M α) : Prop :=
  ∀ b c b', m b = (.ok c, b') → ν c ≤ k

/-- Whatever is returned measures at most `k` and the iterations. -/
def Cnt {α : Type} (k : Nat) (ν : α → Nat) (m : MC α) : Prop :=
  ∀ b c b' n, m b = ((.ok c, b'), n) → ν c ≤ k + n

section
variable {α β : Type} {k j : Nat} {ν : β → Nat} {μ : α → Nat}

theorem Up.bind {m : M α} {f : α → M β} (h : ∀ a, Up k ν (f a)) : Up k ν (m >>= f) := by
  intro b c b' hb
  obtain ⟨a, b1, -, h2⟩ := M.bind_eq_ok.1 hb
  exact h a _ _ _ h2

theorem Up.pure {c : β} (h : ν c ≤ k) : Up k ν (Pure.pure c : M β) := by
  intro b c' b' hb
  simp only [M.pure_apply, Prod.mk.injEq, Out.ok.injEq] at hb
  rw [← hb.1]; exact h

theorem Up.throwE (e : Err) : Up k ν (Mqtt.throwE e : M β) := by
  intro b c' b' hb; simp at hb

theorem Cnt.lift {m : M β} (h : Up k ν m) : Cnt k ν (MC.lift m) := by
  intro b c b' n hb
  simp only [MC.lift, Prod.mk.injEq] at hb
  exact Nat.le_trans (h b c b' hb.1) (Nat.le_add_right _ _)

theorem MC.bind_eq_ok {m : MC α} {f : α → MC β} {b b' : Bytes} {c : β} {n : Nat}
    (h : (m >>= f) b = ((.ok c, b'), n)) :
    ∃ a b1 n1 n2, m b = ((.ok a, b1), n1) ∧ f a b1 = ((.ok c, b'), n2) ∧ n = n1 + n2 := by
  rw [MC.bind_apply] at h
  rcases hm : m b with ⟨⟨o, b1⟩, n1⟩
  rw [hm] at h
  cases o with
  | ok a =>
    simp only [Prod.mk.injEq] at h
    exact ⟨a, b1, n1, (f a b1).2, rfl, Prod.ext h.1 rfl, h.2.symm⟩
  | _ => simp at h

theorem Cnt.bind {m : MC α} {f : α → MC β} (h : Cnt k μ m) (hf : ∀ a, Cnt (μ a) ν (f a)) :
    Cnt k ν (m >>= f) := by
  intro b c b' n hb
  obtain ⟨a, b1, n1, n2, h1, h2, rfl⟩ := MC.bind_eq_ok hb
  have := h _ _ _ _ h1
  have := hf a _ _ _ _ h2
  omega

theorem Cnt.skip {m : MC α} {f : α → MC β} (hf : ∀ a, Cnt k ν (f a)) : Cnt k ν (m >>= f) := by
  intro b c b' n hb
  obtain ⟨a, b1, n1, n2, h1, h2, rfl⟩ := MC.bind_eq_ok hb
  have := hf a _ _ _ _ h2
  omega

theorem Cnt.pure {c : β} (h : ν c ≤ k) : Cnt k ν (Pure.pure c : MC β) := Cnt.lift (Up.pure h)

theorem Cnt.throwE (e : Err) : Cnt k ν (MC.lift (Mqtt.throwE e) : MC β) := Cnt.lift (Up.throwE e)

theorem Cnt.tick {m : MC β} (h : Cnt (k + 1) ν m) : Cnt k ν (MC.tick >>= fun _ => m) := by
  intro b c b' n hb
  obtain ⟨a, b1, n1, n2, h1, h2, rfl⟩ := MC.bind_eq_ok hb
  simp only [MC.tick, Prod.mk.injEq] at h1
  have := h _ _ _ _ h2
  omega

theorem Cnt.ite {c : Prop} [Decidable c] {m m' : MC β} (h : Cnt k ν m) (h' : Cnt k ν m') :
    Cnt k ν (if c then m else m') := by split <;> assumption

theorem Cnt.add {m : MC β} (h : Cnt k ν m) (j : Nat) : Cnt (j + k) (fun a => j + ν a) m := by
  intro b c b' n hb
  have := h _ _ _ _ hb
  dsimp only; omega

end

section
variable {σ : Type} {step : UInt8 → PropertyType → σ → Nat → MC (σ × Nat)} {μ : σ → Nat}

theorem Cnt.propLoopC (h : ∀ p t s c, Cnt (μ s + 1) (fun x => μ x.1) (step p t s c)) (plen : Nat) :
    ∀ fuel c s, Cnt (μ s) μ (Mqtt.propLoopC step plen fuel c s) := by
  intro fuel
  induction fuel with
  | zero => intro c s b _ _ _ hb; simp [Mqtt.propLoopC] at hb
  | succ fuel ih =>
    intro c s
    rw [Mqtt.propLoopC]
    refine Cnt.ite ?_ (Cnt.pure (Nat.le_refl _))
    refine Cnt.tick (Cnt.skip fun _ => Cnt.skip fun _ => ?_)
    exact Cnt.bind (h _ _ _ _) fun _ => ih _ _

/-- A property section, after `k` entries. -/
theorem Cnt.readPropsC (h : ∀ p t s c, Cnt (μ s + 1) (fun x => μ x.1) (step p t s c)) {init : σ}
    (hi : μ init = 0) (k : Nat) :
    Cnt k (fun o => k + o.elim 0 μ) (Mqtt.readPropsC step init) := by
  have : Cnt 0 (fun o => o.elim 0 μ) (Mqtt.readPropsC step init) := by
    refine Cnt.skip fun x => Cnt.skip fun _ => Cnt.ite (Cnt.pure (Nat.le_refl _)) ?_
    refine Cnt.skip fun _ => ?_
    refine Cnt.bind (μ := μ) ?_ fun s => Cnt.pure (Nat.le_refl _)
    have := Cnt.propLoopC h x.2
    intro b c b' n hb
    have := this _ _ _ _ _ _ _ hb
    omega
  exact this.add k

/-- A loop over a list, after `k` entries. -/
theorem Cnt.listLoopC {α : Type} (one : M α) (k fuel : Nat) :
    Cnt k (fun l => k + l.length) (Mqtt.listLoopC one fuel []) := by
  have : ∀ fuel acc, Cnt acc.length List.length (Mqtt.listLoopC one fuel acc) := by
    intro fuel
    induction fuel with
    | zero => intro acc b _ _ _ hb; simp [Mqtt.listLoopC] at hb
    | succ fuel ih =>
      intro acc
      rw [Mqtt.listLoopC]
      refine Cnt.skip fun _ => Cnt.ite (Cnt.pure (Nat.le_refl _)) ?_
      refine Cnt.tick (Cnt.skip fun x => ?_)
      have := ih (acc ++ [x])
      rw [List.length_append] at this
      exact this
  exact (this fuel []).add k

end

/-- The bodies of the property loops. -/
macro "ups" : tactic => `(tactic| (
  repeat first
    | exact Up.throwE _
    | exact Up.pure (by simp <;> omega)
    | refine Up.bind fun _ => ?_))

section
variable (mode : StrMode) (p : UInt8) (t : PropertyType) (c : Nat)

theorem ConnectProperties.up (s : ConnectProperties) :
    Up (s.user_properties.length + 1) (fun x => x.1.user_properties.length)
      (ConnectProperties.step mode p t s c) := by
  cases t <;> (unfold ConnectProperties.step; ups)
theorem LastWillProperties.up (s : LastWillProperties) :
    Up (s.user_properties.length + 1) (fun x => x.1.user_properties.length)
      (LastWillProperties.step mode p t s c) := by
  cases t <;> (unfold LastWillProperties.step; ups)
theorem ConnAckProperties.up (s : ConnAckProperties) :
    Up (s.user_properties.length + 1) (fun x => x.1.user_properties.length)
      (ConnAckProperties.step mode p t s c) := by
  cases t <;> (unfold ConnAckProperties.step; ups)
theorem PublishProperties.up (s : PublishProperties) :
    Up (s.user_properties.length + s.subscription_identifiers.length + 1) (fun x => x.1.user_properties.length + x.1.subscription_identifiers.length)
      (PublishProperties.step mode p t s c) := by
  cases t <;> (unfold PublishProperties.step; ups)
theorem PubAckProperties.up (s : PubAckProperties) :
    Up (s.user_properties.length + 1) (fun x => x.1.user_properties.length)
      (PubAckProperties.step mode p t s c) := by
  cases t <;> (unfold PubAckProperties.step; ups)
theorem PubRecProperties.up (s : PubRecProperties) :
    Up (s.user_properties.length + 1) (fun x => x.1.user_properties.length)
      (PubRecProperties.step mode p t s c) := by
  cases t <;> (unfold PubRecProperties.step; ups)
theorem PubRelProperties.up (s : PubRelProperties) :
    Up (s.user_properties.length + 1) (fun x => x.1.user_properties.length)
      (PubRelProperties.step mode p t s c) := by
  cases t <;> (unfold PubRelProperties.step; ups)
theorem PubCompProperties.up (s : PubCompProperties) :
    Up (s.user_properties.length + 1) (fun x => x.1.user_properties.length)
      (PubCompProperties.step mode p t s c) := by
  cases t <;> (unfold PubCompProperties.step; ups)
theorem SubscribeProperties.up (s : SubscribeProperties) :
    Up (s.user_properties.length + 1) (fun x => x.1.user_properties.length)
      (SubscribeProperties.step mode p t s c) := by
  cases t <;> (unfold SubscribeProperties.step; ups)
theorem SubAckProperties.up (s : SubAckProperties) :
    Up (s.user_properties.length + 1) (fun x => x.1.user_properties.length)
      (SubAckProperties.step mode p t s c) := by
  cases t <;> (unfold SubAckProperties.step; ups)
theorem UnsubscribeProperties.up (s : UnsubscribeProperties) :
    Up (s.user_properties.length + 1) (fun x => x.1.user_properties.length)
      (UnsubscribeProperties.step mode p t s c) := by
  cases t <;> (unfold UnsubscribeProperties.step; ups)
theorem UnsubAckProperties.up (s : UnsubAckProperties) :
    Up (s.user_properties.length + 1) (fun x => x.1.user_properties.length)
      (UnsubAckProperties.step mode p t s c) := by
  cases t <;> (unfold UnsubAckProperties.step; ups)
theorem DisconnectProperties.up (s : DisconnectProperties) :
    Up (s.user_properties.length + 1) (fun x => x.1.user_properties.length)
      (DisconnectProperties.step mode p t s c) := by
  cases t <;> (unfold DisconnectProperties.step; ups)

theorem PublishProperties.cnt (s : PublishProperties) :
    Cnt (s.user_properties.length + s.subscription_identifiers.length + 1)
      (fun x => x.1.user_properties.length + x.1.subscription_identifiers.length)
      (PublishProperties.stepC mode p t s c) := by
  cases t <;> first
    | exact Cnt.lift (PublishProperties.up _ _ _ _ _)
    | exact Cnt.skip fun _ => Cnt.skip fun _ => Cnt.pure (by simp <;> omega)

theorem SubscribeProperties.cnt (s : SubscribeProperties) :
    Cnt (s.user_properties.length + 1) (fun x => x.1.user_properties.length)
      (SubscribeProperties.stepC mode p t s c) := by
  cases t <;> first
    | exact Cnt.lift (SubscribeProperties.up _ _ _ _ _)
    | exact Cnt.skip fun _ => Cnt.skip fun _ => Cnt.pure (by simp)

end

theorem Cnt.plain {σ : Type} {step : UInt8 → PropertyType → σ → Nat → M (σ × Nat)} {μ : σ → Nat}
    (h : ∀ p t c s, Up (μ s + 1) (fun x => μ x.1) (step p t s c)) {init : σ} (hi : μ init = 0)
    (k : Nat) : Cnt k (fun o => k + o.elim 0 μ) (Mqtt.readPropsC (Mqtt.plain step) init) :=
  Cnt.readPropsC (fun p t s c => Cnt.lift (h p t c s)) hi k

section
variable (mode : StrMode) (h : FixedHeader)

theorem LastWill.cnt (x : UInt8) (k : Nat) :
    Cnt k (fun w => k + w.elim 0 fun w => w.properties.elim 0 (·.user_properties.length))
      (LastWill.readC mode x) := by
  unfold LastWill.readC
  refine Cnt.ite (Cnt.ite (Cnt.throwE _) (Cnt.pure (by simp))) ?_
  refine Cnt.bind (Cnt.plain (μ := fun s => s.user_properties.length) (LastWillProperties.up mode) rfl k) fun o => ?_
  exact Cnt.skip fun _ => Cnt.skip fun _ => Cnt.skip fun _ => Cnt.pure (Nat.le_refl _)

theorem Connect.cnt : Cnt 0 (fun x => Spec.listEntries (.Connect x.1 x.2.1 x.2.2))
    (Connect.readC mode h) := by
  refine Cnt.skip fun _ => Cnt.skip fun _ => Cnt.skip fun _ => ?_
  refine Cnt.ite (Cnt.throwE _) (Cnt.ite (Cnt.throwE _) ?_)
  refine Cnt.skip fun _ => Cnt.skip fun _ => ?_
  refine Cnt.bind (Cnt.plain (μ := fun s => s.user_properties.length) (ConnectProperties.up mode) rfl 0) fun o => ?_
  refine Cnt.skip fun _ => ?_
  refine Cnt.bind (LastWill.cnt mode _ _) fun w => ?_
  exact Cnt.skip fun _ => Cnt.pure (by simp only [Spec.listEntries]; omega)

theorem ConnAck.cnt : Cnt 0 (fun x => Spec.listEntries (.ConnAck x)) (ConnAck.readC mode h) := by
  refine Cnt.skip fun _ => Cnt.skip fun _ => Cnt.skip fun _ => ?_
  refine Cnt.bind (Cnt.plain (μ := fun s => s.user_properties.length) (ConnAckProperties.up mode) rfl 0) fun o => ?_
  exact Cnt.skip fun _ => Cnt.pure (by simp only [Spec.listEntries]; omega)

theorem Publish.cnt : Cnt 0 (fun x => Spec.listEntries (.Publish x)) (Publish.readC mode h) := by
  refine Cnt.skip fun _ => Cnt.skip fun _ => Cnt.skip fun _ => Cnt.skip fun _ => ?_
  refine Cnt.ite (Cnt.throwE _) ?_
  refine Cnt.bind (Cnt.readPropsC
    (μ := fun s => s.user_properties.length + s.subscription_identifiers.length)
    (fun p t s c => PublishProperties.cnt mode p t c s) rfl 0) fun o => ?_
  exact Cnt.skip fun _ => Cnt.pure (by simp only [Spec.listEntries]; omega)

theorem PubAck.cnt : Cnt 0 (fun x => Spec.listEntries (.PubAck x)) (PubAck.readC mode h) := by
  refine Cnt.skip fun _ => Cnt.skip fun _ => ?_
  refine Cnt.ite (Cnt.pure (by simp [Spec.listEntries])) ?_
  refine Cnt.skip fun _ => ?_
  refine Cnt.ite (Cnt.skip fun _ => Cnt.pure (by simp [Spec.listEntries])) ?_
  refine Cnt.bind (Cnt.plain (μ := fun s => s.user_properties.length) (PubAckProperties.up mode) rfl 0) fun o => ?_
  exact Cnt.skip fun _ => Cnt.pure (by simp only [Spec.listEntries]; omega)

theorem PubRec.cnt : Cnt 0 (fun x => Spec.listEntries (.PubRec x)) (PubRec.readC mode h) := by
  refine Cnt.skip fun _ => Cnt.skip fun _ => ?_
  refine Cnt.ite (Cnt.pure (by simp [Spec.listEntries])) ?_
  refine Cnt.skip fun _ => ?_
  refine Cnt.ite (Cnt.skip fun _ => Cnt.pure (by simp [Spec.listEntries])) ?_
  refine Cnt.bind (Cnt.plain (μ := fun s => s.user_properties.length) (PubRecProperties.up mode) rfl 0) fun o => ?_
  exact Cnt.skip fun _ => Cnt.pure (by simp only [Spec.listEntries]; omega)

theorem PubRel.cnt : Cnt 0 (fun x => Spec.listEntries (.PubRel x)) (PubRel.readC mode h) := by
  refine Cnt.skip fun _ => Cnt.skip fun _ => ?_
  refine Cnt.ite (Cnt.pure (by simp [Spec.listEntries])) ?_
  refine Cnt.skip fun _ => ?_
  refine Cnt.ite (Cnt.skip fun _ => Cnt.pure (by simp [Spec.listEntries])) ?_
  refine Cnt.bind (Cnt.plain (μ := fun s => s.user_properties.length) (PubRelProperties.up mode) rfl 0) fun o => ?_
  exact Cnt.skip fun _ => Cnt.pure (by simp only [Spec.listEntries]; omega)

theorem PubComp.cnt : Cnt 0 (fun x => Spec.listEntries (.PubComp x)) (PubComp.readC mode h) := by
  refine Cnt.skip fun _ => Cnt.skip fun _ => ?_
  refine Cnt.ite (Cnt.pure (by simp [Spec.listEntries])) ?_
  refine Cnt.skip fun _ => ?_
  refine Cnt.ite (Cnt.skip fun _ => Cnt.pure (by simp [Spec.listEntries])) ?_
  refine Cnt.bind (Cnt.plain (μ := fun s => s.user_properties.length) (PubCompProperties.up mode) rfl 0) fun o => ?_
  exact Cnt.skip fun _ => Cnt.pure (by simp only [Spec.listEntries]; omega)

theorem Subscribe.cnt : Cnt 0 (fun x => Spec.listEntries (.Subscribe x)) (Subscribe.readC mode h) := by
  refine Cnt.skip fun _ => Cnt.skip fun _ => ?_
  refine Cnt.bind (Cnt.readPropsC (μ := fun s => s.user_properties.length)
    (fun p t s c => SubscribeProperties.cnt mode p t c s) rfl 0) fun o => ?_
  refine Cnt.skip fun _ => ?_
  refine Cnt.bind (Cnt.listLoopC _ _ _) fun l => ?_
  cases l with
  | nil => exact Cnt.throwE _
  | cons _ _ => exact Cnt.pure (by simp only [Spec.listEntries]; omega)

theorem SubAck.cnt : Cnt 0 (fun x => Spec.listEntries (.SubAck x)) (SubAck.readC mode h) := by
  refine Cnt.skip fun _ => Cnt.skip fun _ => ?_
  refine Cnt.bind (Cnt.plain (μ := fun s => s.user_properties.length) (SubAckProperties.up mode) rfl 0) fun o => ?_
  refine Cnt.skip fun _ => Cnt.ite (Cnt.throwE _) ?_
  refine Cnt.bind (Cnt.listLoopC _ _ _) fun l => ?_
  exact Cnt.pure (by simp only [Spec.listEntries]; omega)

theorem Unsubscribe.cnt : Cnt 0 (fun x => Spec.listEntries (.Unsubscribe x))
    (Unsubscribe.readC mode h) := by
  refine Cnt.skip fun _ => Cnt.skip fun _ => ?_
  refine Cnt.bind (Cnt.plain (μ := fun s => s.user_properties.length) (UnsubscribeProperties.up mode) rfl 0) fun o => ?_
  refine Cnt.skip fun _ => ?_
  refine Cnt.bind (Cnt.listLoopC _ _ _) fun l => ?_
  exact Cnt.pure (by simp only [Spec.listEntries]; omega)

theorem UnsubAck.cnt : Cnt 0 (fun x => Spec.listEntries (.UnsubAck x)) (UnsubAck.readC mode h) := by
  refine Cnt.skip fun _ => Cnt.skip fun _ => ?_
  refine Cnt.bind (Cnt.plain (μ := fun s => s.user_properties.length) (UnsubAckProperties.up mode) rfl 0) fun o => ?_
  refine Cnt.skip fun _ => Cnt.ite (Cnt.throwE _) ?_
  refine Cnt.bind (Cnt.listLoopC _ _ _) fun l => ?_
  exact Cnt.pure (by simp only [Spec.listEntries]; omega)

theorem Disconnect.cnt : Cnt 0 (fun x => Spec.listEntries (.Disconnect x)) (Disconnect.readC mode h) := by
  refine Cnt.skip fun _ => ?_
  refine Cnt.ite (Cnt.throwE _) (Cnt.ite (Cnt.throwE _) ?_)
  refine Cnt.ite (Cnt.pure (by simp [Spec.listEntries, Disconnect.new])) ?_
  refine Cnt.skip fun _ => Cnt.skip fun _ => ?_
  refine Cnt.bind (Cnt.plain (μ := fun s => s.user_properties.length) (DisconnectProperties.up mode) rfl 0) fun o => ?_
  exact Cnt.pure (by simp only [Spec.listEntries]; omega)

theorem Cnt.onOwnedC {α : Type} {m : MC α} {k : Nat} {ν : α → Nat} (hm : Cnt k ν m) (packet : Bytes) :
    Cnt k ν (Mqtt.onOwnedC packet m) := by
  intro b c b' n hb
  simp only [Mqtt.onOwnedC, Prod.mk.injEq] at hb
  exact hm packet c (m packet).1.2 n (Prod.ext (Prod.ext hb.1.1 rfl) hb.2)

theorem readBodyC_cnt (t : PacketType) (packet : Bytes) :
    Cnt 0 Spec.listEntries (Packet.readBodyC mode h t packet) := by
  cases t with
  | Connect => exact Cnt.bind ((Connect.cnt mode h).onOwnedC packet) fun _ => Cnt.pure (Nat.le_refl _)
  | ConnAck => exact Cnt.bind ((ConnAck.cnt mode h).onOwnedC packet) fun _ => Cnt.pure (Nat.le_refl _)
  | Publish => exact Cnt.bind ((Publish.cnt mode h).onOwnedC packet) fun _ => Cnt.pure (Nat.le_refl _)
  | PubAck => exact Cnt.bind ((PubAck.cnt mode h).onOwnedC packet) fun _ => Cnt.pure (Nat.le_refl _)
  | PubRec => exact Cnt.bind ((PubRec.cnt mode h).onOwnedC packet) fun _ => Cnt.pure (Nat.le_refl _)
  | PubRel => exact Cnt.bind ((PubRel.cnt mode h).onOwnedC packet) fun _ => Cnt.pure (Nat.le_refl _)
  | PubComp => exact Cnt.bind ((PubComp.cnt mode h).onOwnedC packet) fun _ => Cnt.pure (Nat.le_refl _)
  | Subscribe => exact Cnt.bind ((Subscribe.cnt mode h).onOwnedC packet) fun _ => Cnt.pure (Nat.le_refl _)
  | SubAck => exact Cnt.bind ((SubAck.cnt mode h).onOwnedC packet) fun _ => Cnt.pure (Nat.le_refl _)
  | Unsubscribe => exact Cnt.bind ((Unsubscribe.cnt mode h).onOwnedC packet) fun _ => Cnt.pure (Nat.le_refl _)
  | UnsubAck => exact Cnt.bind ((UnsubAck.cnt mode h).onOwnedC packet) fun _ => Cnt.pure (Nat.le_refl _)
  | Disconnect => exact Cnt.bind ((Disconnect.cnt mode h).onOwnedC packet) fun _ => Cnt.pure (Nat.le_refl _)
  | PingReq => exact Cnt.pure (Nat.le_refl _)
  | PingResp => exact Cnt.pure (Nat.le_refl _)

end

theorem lengthC_pos {b : Bytes} {n v : Nat} (h : (lengthC b).1 = .ok (n, v)) : 1 ≤ (lengthC b).2 := by
  cases b with
  | nil => simp [lengthC, lengthLoopC] at h
  | cons x b =>
    unfold lengthC lengthLoopC
    dsimp only
    split
    · exact Nat.le_refl _
    · split
      · exact Nat.le_refl _
      · exact Nat.succ_le_succ (Nat.zero_le _)

theorem checkC_pos {b : Bytes} {max : Option Nat} {h : FixedHeader}
    (hc : (checkC b max).1 = .ok h) : 1 ≤ (checkC b max).2 := by
  have hp : ∀ h, (parse_fixed_headerC b).1 = .ok h → 1 ≤ (parse_fixed_headerC b).2 := by
    intro h hh
    unfold parse_fixed_headerC at hh ⊢
    dsimp only at hh ⊢
    split at hh
    · simp at hh
    rw [if_neg (by assumption)]
    cases b with
    | nil => simp at hh
    | cons x b =>
      dsimp only at hh ⊢
      rcases hl : lengthC b with ⟨o, n⟩
      rw [hl] at hh
      cases o with
      | ok y =>
        have := lengthC_pos (b := b) (n := y.1) (v := y.2) (by rw [hl])
        rw [hl] at this
        exact this
      | _ => simp at hh
  unfold checkC at hc ⊢
  dsimp only at hc ⊢
  rcases hq : parse_fixed_headerC b with ⟨o, n⟩
  rw [hq] at hp hc
  cases o with
  | ok h' =>
    have h1 := hp h' rfl
    cases max with
    | none =>
      dsimp only at hc ⊢
      split <;> exact h1
    | some m =>
      by_cases hm : h'.remaining_len > m
      · simp only [if_pos hm]; exact h1
      · simp only [if_neg hm]; split <;> exact h1
  | _ => simp at hc

theorem readC_cnt {mode : StrMode} {max : Option Nat} {b b' : Bytes} {p : Packet} {n : Nat}
    (h : Packet.readC mode max b = ((.ok p, b'), n)) : Spec.listEntries p < n := by
  unfold Packet.readC at h
  obtain ⟨s, b1, n1, n2, h1, h2, rfl⟩ := MC.bind_eq_ok h
  obtain ⟨fh, b2, n3, n4, h3, h4, rfl⟩ := MC.bind_eq_ok h2
  have hpos : 1 ≤ n3 := by
    simp only [checkMC, Prod.mk.injEq] at h3
    rw [← h3.2]; exact checkC_pos h3.1.1
  have : Cnt 0 Spec.listEntries (lift (splitTo fh.frame_length) >>= fun packet =>
      lift (liftOut fh.packet_type) >>= fun packet_type =>
      if fh.remaining_len = 0 ∧ packet_type ≠ .Disconnect then
        (match packet_type with
        | .PingReq => pure .PingReq
        | .PingResp => pure .PingResp
        | _ => lift (throwE .PayloadRequired))
      else Packet.readBodyC mode fh packet_type packet) := by
    refine Cnt.skip fun packet => Cnt.skip fun t => Cnt.ite ?_ (readBodyC_cnt mode fh t packet)
    cases t <;> first
      | exact Cnt.throwE _
      | exact Cnt.pure (Nat.le_refl _)
  have := this _ _ _ _ h4
  omega

end Mqtt
