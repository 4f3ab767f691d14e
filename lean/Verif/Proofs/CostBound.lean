import Verif.Proofs.Cost
/-
Every iteration of a loop of the decoder that does not fail takes at least one byte.
-/
set_option linter.unusedSimpArgs false

namespace Mqtt

open MC (lift tick erase)

/-- Never adds to the buffer. -/
def Shrinks {α : Type} (m : M α) : Prop := ∀ b, (m b).2.length ≤ b.length

/-- Takes at least one byte if it succeeds. -/
def Takes {α : Type} (m : M α) : Prop :=
  ∀ b, (m b).2.length ≤ b.length ∧ ∀ a, (m b).1 = .ok a → (m b).2.length < b.length

/-- Iterations and bytes left do not exceed the bytes there were (plus 4 on failure). -/
def Lin {α : Type} (m : MC α) : Prop :=
  ∀ b, (m b).2 + (m b).1.2.length ≤ b.length + 4 ∧
    ∀ a, (m b).1.1 = .ok a → (m b).2 + (m b).1.2.length ≤ b.length

section
variable {α β : Type}

theorem Good.shrinks {m : M α} (h : Good m) : Shrinks m := fun b => (h b).2.2.length_le

theorem Shrinks.pure (a : α) : Shrinks (Pure.pure a : M α) := fun _ => Nat.le_refl _
theorem Shrinks.throwE (e : Err) : Shrinks (Mqtt.throwE e : M α) := fun _ => Nat.le_refl _
theorem Shrinks.liftOut (o : Out α) : Shrinks (Mqtt.liftOut o : M α) := fun _ => Nat.le_refl _
theorem Shrinks.getBuf : Shrinks Mqtt.getBuf := fun _ => Nat.le_refl _

theorem Shrinks.advance (n : Nat) : Shrinks (Mqtt.advance n) := by
  intro b; unfold Mqtt.advance; split <;> simp

theorem Shrinks.splitTo (n : Nat) : Shrinks (Mqtt.splitTo n) := by
  intro b; unfold Mqtt.splitTo; split <;> simp

theorem Shrinks.bind {m : M α} {f : α → M β} (hm : Shrinks m) (hf : ∀ a, Shrinks (f a)) :
    Shrinks (m >>= f) := by
  intro b
  rw [M.bind_apply]
  have h := hm b
  rcases hb : m b with ⟨o, b'⟩
  rw [hb] at h
  cases o with
  | ok a => exact Nat.le_trans (hf a b') h
  | _ => exact h

theorem Shrinks.ite {c : Prop} [Decidable c] {m m' : M α} (h : Shrinks m) (h' : Shrinks m') :
    Shrinks (if c then m else m') := by split <;> assumption

theorem Takes.shrinks {m : M α} (h : Takes m) : Shrinks m := fun b => (h b).1

theorem Takes.bind {m : M α} {f : α → M β} (hm : Takes m) (hf : ∀ a, Shrinks (f a)) :
    Takes (m >>= f) := by
  intro b
  rw [M.bind_apply]
  have h := hm b
  rcases hb : m b with ⟨o, b'⟩
  rw [hb] at h
  cases o with
  | ok a =>
    have := hf a b'
    have := h.2 a rfl
    exact ⟨by dsimp only at *; omega, fun _ _ => by dsimp only at *; omega⟩
  | _ => exact ⟨h.1, fun _ h' => by simp at h'⟩

theorem Takes.read_u8 : Takes Mqtt.read_u8 := by
  intro b
  cases b with
  | nil => rw [read_u8_nil]; simp
  | cons x b => rw [read_u8_cons]; simp

theorem Takes.read_u16 : Takes Mqtt.read_u16 := by
  intro b
  match b with
  | [] => exact ⟨Nat.le_refl _, fun _ h => by simp [Mqtt.read_u16] at h⟩
  | [x] => exact ⟨Nat.le_refl _, fun _ h => by simp [Mqtt.read_u16] at h⟩
  | x :: y :: b =>
    have : Mqtt.read_u16 (x :: y :: b) = (.ok (UInt16.ofNat (x.toNat * 256 + y.toNat)), b) := by
      rw [Mqtt.read_u16, getBuf_bind, if_neg (by simp)]; rfl
    rw [this]
    exact ⟨by simp; omega, fun _ _ => by simp; omega⟩

theorem Takes.read_mqtt_bytes : Takes Mqtt.read_mqtt_bytes :=
  Takes.bind Takes.read_u16 fun _ => Shrinks.bind Shrinks.getBuf fun _ =>
    Shrinks.ite (Shrinks.throwE _) (Shrinks.splitTo _)

theorem Takes.read_mqtt_string (mode : StrMode) : Takes (Mqtt.read_mqtt_string mode) := by
  refine Takes.bind Takes.read_mqtt_bytes fun b => ?_
  cases mode
  · exact Shrinks.ite (Shrinks.pure _) (Shrinks.throwE _)
  · exact Shrinks.pure _

theorem Lin.lift {m : M α} (h : Shrinks m) : Lin (MC.lift m) := by
  intro b
  have := h b
  exact ⟨by show 0 + (m b).2.length ≤ _; omega, fun _ _ => by show 0 + (m b).2.length ≤ _; omega⟩

theorem Lin.pure (a : α) : Lin (Pure.pure a : MC α) := Lin.lift (Shrinks.pure a)

theorem MC.bind_apply (m : MC α) (f : α → MC β) (b : Bytes) :
    (m >>= f) b = match m b with
      | ((.ok a, b'), n) => ((f a b').1, n + (f a b').2)
      | ((.err e, b'), n) => ((.err e, b'), n)
      | ((.panic, b'), n) => ((.panic, b'), n)
      | ((.diverge, b'), n) => ((.diverge, b'), n) := rfl

theorem Lin.bind {m : MC α} {f : α → MC β} (hm : Lin m) (hf : ∀ a, Lin (f a)) :
    Lin (m >>= f) := by
  intro b
  rw [MC.bind_apply]
  have h := hm b
  rcases hb : m b with ⟨⟨o, b'⟩, n⟩
  rw [hb] at h
  cases o with
  | ok a =>
    have h1 := h.2 a rfl
    have h2 := hf a b'
    dsimp only at h1 ⊢
    exact ⟨by omega, fun c hc => by have := h2.2 c hc; omega⟩
  | _ => exact ⟨h.1, fun _ h' => by simp at h'⟩

theorem Lin.ite {c : Prop} [Decidable c] {m m' : MC α} (h : Lin m) (h' : Lin m') :
    Lin (if c then m else m') := by split <;> assumption

/-- A loop body that begins by taking a byte. -/
theorem Lin.tick {m : M α} {f : α → MC β} (hm : Takes m) (hf : ∀ a, Lin (f a)) :
    Lin (MC.tick >>= fun _ => MC.lift m >>= f) := by
  intro b
  have h := hm b
  show (1 + (((MC.lift m >>= f) b).2) + ((MC.lift m >>= f) b).1.2.length ≤ b.length + 4) ∧
    ∀ a, ((MC.lift m >>= f) b).1.1 = .ok a →
      (1 + (((MC.lift m >>= f) b).2) + ((MC.lift m >>= f) b).1.2.length ≤ b.length)
  rw [MC.bind_apply]
  show _
  have hl : MC.lift m b = (m b, 0) := rfl
  rw [hl]
  rcases hb : m b with ⟨o, b'⟩
  rw [hb] at h
  cases o with
  | ok a =>
    have h1 := h.2 a rfl
    have h2 := hf a b'
    dsimp only at h1 ⊢
    exact ⟨by omega, fun c hc => by have := h2.2 c hc; omega⟩
  | _ => exact ⟨by have := h.1; dsimp only at this ⊢; omega, fun _ h' => by simp at h'⟩

/-- The iterations of the loop over a variable byte integer: as many as it has bytes, at most 4. -/
theorem lengthLoopC_count (b : Bytes) : ∀ len ll s k, s = 7 * k → k ≤ 3 →
    (lengthLoopC b len ll s).2 + k ≤ 4 ∧
      ∀ n v, (lengthLoopC b len ll s).1 = .ok (n, v) → (lengthLoopC b len ll s).2 + ll = n := by
  induction b with
  | nil => intro _ _ _ k _ _; exact ⟨by simp [lengthLoopC]; omega, fun _ _ h => by simp [lengthLoopC] at h⟩
  | cons x b ih =>
    intro len ll s k hs hk
    simp only [lengthLoopC]
    split
    · refine ⟨by dsimp only; omega, fun n v h => ?_⟩
      simp only [Out.ok.injEq, Prod.mk.injEq] at h
      dsimp only; omega
    · split
      · exact ⟨by dsimp only; omega, fun _ _ h => by simp at h⟩
      · have := ih (len + ((x.toNat &&& 0x7F) <<< s)) (ll + 1) (s + 7) (k + 1) (by omega) (by omega)
        refine ⟨by dsimp only; omega, fun n v h => ?_⟩
        have := this.2 n v h
        dsimp only; omega

theorem lengthC_le (b : Bytes) : (lengthC b).2 ≤ 4 :=
  (lengthLoopC_count b 0 0 0 0 rfl (by omega)).1

theorem lengthC_ok {b : Bytes} {n v : Nat} (h : (lengthC b).1 = .ok (n, v)) : (lengthC b).2 = n :=
  (lengthLoopC_count b 0 0 0 0 rfl (by omega)).2 n v h

/-- A variable byte integer and the step over it. -/
theorem Lin.varint {f : Nat × Nat → MC β} (hf : ∀ x, Lin (f x)) :
    Lin (lengthMC >>= fun x => MC.lift (Mqtt.advance x.1) >>= fun _ => f x) := by
  intro b
  rw [MC.bind_apply]
  show _
  rw [show lengthMC b = (((lengthC b).1, b), (lengthC b).2) from rfl]
  have hle := lengthC_le b
  rcases hl : lengthC b with ⟨o, k⟩
  rw [hl] at hle
  cases o with
  | ok x =>
    obtain ⟨n, v⟩ := x
    have hk : k = n := by have := lengthC_ok (b := b) (n := n) (v := v) (by rw [hl]); rw [hl] at this; exact this
    dsimp only
    rw [MC.bind_apply]
    rw [show MC.lift (Mqtt.advance n) b = (Mqtt.advance n b, 0) from rfl]
    unfold Mqtt.advance
    by_cases hn : n ≤ b.length
    · rw [if_pos hn]
      dsimp only
      have h2 := hf (n, v) (b.drop n)
      rw [List.length_drop] at h2
      exact ⟨by omega, fun c hc => by have := h2.2 c hc; omega⟩
    · rw [if_neg hn]
      exact ⟨by dsimp only at hle ⊢; omega, fun _ h => by simp at h⟩
  | _ => exact ⟨by dsimp only at hle ⊢; omega, fun _ h => by simp at h⟩

end

/-! ### The loops -/

section
variable {σ : Type} {step : UInt8 → PropertyType → σ → Nat → MC (σ × Nat)}

theorem Lin.propLoopC (h : ∀ p t s c, Lin (step p t s c)) (plen : Nat) :
    ∀ fuel c s, Lin (Mqtt.propLoopC step plen fuel c s) := by
  intro fuel
  induction fuel with
  | zero => intro c s b; exact ⟨by show 0 + b.length ≤ _; omega, fun _ h => by simp [Mqtt.propLoopC] at h⟩
  | succ fuel ih =>
    intro c s
    rw [Mqtt.propLoopC]
    refine Lin.ite ?_ (Lin.pure _)
    exact Lin.tick Takes.read_u8 fun _ => Lin.bind (Lin.lift (Shrinks.liftOut _)) fun _ =>
      Lin.bind (h _ _ _ _) fun _ => ih _ _

theorem Lin.readPropsC (h : ∀ p t s c, Lin (step p t s c)) (init : σ) :
    Lin (Mqtt.readPropsC step init) := by
  refine Lin.varint fun x => Lin.ite (Lin.pure _) ?_
  exact Lin.bind (Lin.lift Shrinks.getBuf) fun _ =>
    Lin.bind (Lin.propLoopC h _ _ _ _) fun _ => Lin.pure _

theorem Lin.listLoopC {α : Type} {one : M α} (h : Takes one) :
    ∀ fuel acc, Lin (Mqtt.listLoopC one fuel acc) := by
  intro fuel
  induction fuel with
  | zero => intro acc b; exact ⟨by show 0 + b.length ≤ _; omega, fun _ h => by simp [Mqtt.listLoopC] at h⟩
  | succ fuel ih =>
    intro acc
    rw [Mqtt.listLoopC]
    refine Lin.bind (Lin.lift Shrinks.getBuf) fun _ => Lin.ite (Lin.pure _) ?_
    exact Lin.tick h fun _ => ih _

theorem Shrinks.read_u32 : Shrinks Mqtt.read_u32 := Good.read_u32.shrinks

/-- The bodies of the property loops. -/
macro "shrinks" : tactic => `(tactic| (
  repeat first
    | exact Shrinks.pure _
    | exact Shrinks.throwE _
    | exact Takes.read_u8.shrinks
    | exact Takes.read_u16.shrinks
    | exact Shrinks.read_u32
    | exact Shrinks.advance _
    | exact Takes.read_mqtt_bytes.shrinks
    | exact (Takes.read_mqtt_string _).shrinks
    | exact Good.lengthM.shrinks
    | refine Shrinks.bind ?_ fun _ => ?_))

end

section
variable (mode : StrMode) (p : UInt8) (t : PropertyType) (c : Nat)

theorem ConnectProperties.shrinks (s : ConnectProperties) :
    Shrinks (ConnectProperties.step mode p t s c) := by
  cases t <;> (unfold ConnectProperties.step; shrinks)
theorem LastWillProperties.shrinks (s : LastWillProperties) :
    Shrinks (LastWillProperties.step mode p t s c) := by
  cases t <;> (unfold LastWillProperties.step; shrinks)
theorem ConnAckProperties.shrinks (s : ConnAckProperties) :
    Shrinks (ConnAckProperties.step mode p t s c) := by
  cases t <;> (unfold ConnAckProperties.step; shrinks)
theorem PublishProperties.shrinks (s : PublishProperties) :
    Shrinks (PublishProperties.step mode p t s c) := by
  cases t <;> (unfold PublishProperties.step; shrinks)
theorem PubAckProperties.shrinks (s : PubAckProperties) :
    Shrinks (PubAckProperties.step mode p t s c) := by
  cases t <;> (unfold PubAckProperties.step; shrinks)
theorem PubRecProperties.shrinks (s : PubRecProperties) :
    Shrinks (PubRecProperties.step mode p t s c) := by
  cases t <;> (unfold PubRecProperties.step; shrinks)
theorem PubRelProperties.shrinks (s : PubRelProperties) :
    Shrinks (PubRelProperties.step mode p t s c) := by
  cases t <;> (unfold PubRelProperties.step; shrinks)
theorem PubCompProperties.shrinks (s : PubCompProperties) :
    Shrinks (PubCompProperties.step mode p t s c) := by
  cases t <;> (unfold PubCompProperties.step; shrinks)
theorem SubscribeProperties.shrinks (s : SubscribeProperties) :
    Shrinks (SubscribeProperties.step mode p t s c) := by
  cases t <;> (unfold SubscribeProperties.step; shrinks)
theorem SubAckProperties.shrinks (s : SubAckProperties) :
    Shrinks (SubAckProperties.step mode p t s c) := by
  cases t <;> (unfold SubAckProperties.step; shrinks)
theorem UnsubscribeProperties.shrinks (s : UnsubscribeProperties) :
    Shrinks (UnsubscribeProperties.step mode p t s c) := by
  cases t <;> (unfold UnsubscribeProperties.step; shrinks)
theorem UnsubAckProperties.shrinks (s : UnsubAckProperties) :
    Shrinks (UnsubAckProperties.step mode p t s c) := by
  cases t <;> (unfold UnsubAckProperties.step; shrinks)
theorem DisconnectProperties.shrinks (s : DisconnectProperties) :
    Shrinks (DisconnectProperties.step mode p t s c) := by
  cases t <;> (unfold DisconnectProperties.step; shrinks)

theorem PublishProperties.lin (s : PublishProperties) :
    Lin (PublishProperties.stepC mode p t s c) := by
  cases t <;> first
    | exact Lin.lift (PublishProperties.shrinks _ _ _ _ _)
    | exact Lin.varint fun _ => Lin.pure _
theorem SubscribeProperties.lin (s : SubscribeProperties) :
    Lin (SubscribeProperties.stepC mode p t s c) := by
  cases t <;> first
    | exact Lin.lift (SubscribeProperties.shrinks _ _ _ _ _)
    | exact Lin.varint fun _ => Lin.pure _

end

theorem Lin.plain {σ : Type} {step : UInt8 → PropertyType → σ → Nat → M (σ × Nat)}
    (h : ∀ p t c s, Shrinks (step p t s c)) (init : σ) : Lin (Mqtt.readPropsC (Mqtt.plain step) init) :=
  Lin.readPropsC (fun p t s c => Lin.lift (h p t c s)) init


/-! ### The typed readers, given the header -/

/-- `Lin` for a reader that first steps over `n` bytes. -/
def LinA {α : Type} (n : Nat) (m : MC α) : Prop :=
  ∀ b, n ≤ b.length → (m b).2 + n ≤ b.length + 4 ∧
    ∀ a, (m b).1.1 = .ok a → (m b).2 + n ≤ b.length

theorem LinA.advance {α : Type} {n : Nat} {f : Unit → MC α} (h : ∀ u, Lin (f u)) :
    LinA n (lift (Mqtt.advance n) >>= f) := by
  intro b hb
  rw [MC.bind_apply]
  rw [show lift (Mqtt.advance n) b = (Mqtt.advance n b, 0) from rfl]
  unfold Mqtt.advance
  rw [if_pos hb]
  dsimp only
  have h2 := h () (b.drop n)
  rw [List.length_drop] at h2
  exact ⟨by omega, fun c hc => by have := h2.2 c hc; omega⟩

theorem LinA.ok_bind {α β : Type} {n : Nat} {a : α} {f : α → MC β} (h : LinA n (f a)) :
    LinA n (lift (pure a : M α) >>= f) := by
  intro b hb
  rw [MC.bind_apply, show lift (pure a : M α) b = ((.ok a, b), 0) from rfl]
  dsimp only
  rw [Nat.zero_add]
  exact h b hb

section
variable (mode : StrMode) (h : FixedHeader)

theorem Lin.lastWill (x : UInt8) : Lin (LastWill.readC mode x) := by
  unfold LastWill.readC
  refine Lin.ite (Lin.ite (Lin.lift (Shrinks.throwE _)) (Lin.pure _)) ?_
  exact Lin.bind (Lin.plain (LastWillProperties.shrinks mode) _) fun _ =>
    Lin.bind (Lin.lift Takes.read_mqtt_bytes.shrinks) fun _ =>
    Lin.bind (Lin.lift Takes.read_mqtt_bytes.shrinks) fun _ =>
    Lin.bind (Lin.lift (Good.qosOrErr _).shrinks) fun _ => Lin.pure _

theorem Shrinks.login (x : UInt8) : Shrinks (Login.read mode x) := by
  unfold Login.read
  refine Shrinks.bind (Shrinks.ite (Shrinks.pure _) (Takes.read_mqtt_string _).shrinks) fun _ => ?_
  refine Shrinks.bind (Shrinks.ite (Shrinks.pure _) (Takes.read_mqtt_string _).shrinks) fun _ => ?_
  exact Shrinks.ite (Shrinks.pure _) (Shrinks.pure _)

theorem Connect.linA : LinA h.fixed_header_len (Connect.readC mode h) := by
  refine LinA.advance fun _ => ?_
  refine Lin.bind (Lin.lift (Takes.read_mqtt_string _).shrinks) fun _ => ?_
  refine Lin.bind (Lin.lift Takes.read_u8.shrinks) fun _ => ?_
  refine Lin.ite (Lin.lift (Shrinks.throwE _)) (Lin.ite (Lin.lift (Shrinks.throwE _)) ?_)
  refine Lin.bind (Lin.lift Takes.read_u8.shrinks) fun _ => ?_
  refine Lin.bind (Lin.lift Takes.read_u16.shrinks) fun _ => ?_
  refine Lin.bind (Lin.plain (ConnectProperties.shrinks mode) _) fun _ => ?_
  refine Lin.bind (Lin.lift (Takes.read_mqtt_string _).shrinks) fun _ => ?_
  refine Lin.bind (Lin.lastWill _ _) fun _ => ?_
  exact Lin.bind (Lin.lift (Shrinks.login _ _)) fun _ => Lin.pure _

theorem ConnAck.linA : LinA h.fixed_header_len (ConnAck.readC mode h) := by
  refine LinA.advance fun _ => ?_
  refine Lin.bind (Lin.lift Takes.read_u8.shrinks) fun _ => ?_
  refine Lin.bind (Lin.lift Takes.read_u8.shrinks) fun _ => ?_
  refine Lin.bind (Lin.plain (ConnAckProperties.shrinks mode) _) fun _ => ?_
  exact Lin.bind (Lin.lift (Shrinks.liftOut _)) fun _ => Lin.pure _

theorem Publish.linA : LinA h.fixed_header_len (Publish.readC mode h) := by
  unfold Publish.readC qosOrErr
  dsimp only
  cases Mqtt.qos ((h.byte1 &&& 6) >>> 1) with
  | none =>
    intro b hb
    exact ⟨by show 0 + _ ≤ _; omega, fun _ _ => by show 0 + _ ≤ _; omega⟩
  | some q =>
    refine LinA.ok_bind (a := q) ?_
    refine LinA.advance fun _ => ?_
    refine Lin.bind (Lin.lift (Takes.read_mqtt_string _).shrinks) fun _ => ?_
    refine Lin.bind (Lin.lift ?_) fun _ => ?_
    · cases q
      · exact Shrinks.pure _
      · exact Takes.read_u16.shrinks
      · exact Takes.read_u16.shrinks
    refine Lin.ite (Lin.lift (Shrinks.throwE _)) ?_
    refine Lin.bind (Lin.readPropsC (fun p t s c => PublishProperties.lin mode p t c s) _) fun _ => ?_
    exact Lin.bind (Lin.lift Shrinks.getBuf) fun _ => Lin.pure _

theorem PubAck.linA : LinA h.fixed_header_len (PubAck.readC mode h) := by
  refine LinA.advance fun _ => ?_
  refine Lin.bind (Lin.lift Takes.read_u16.shrinks) fun _ => ?_
  refine Lin.ite (Lin.pure _) ?_
  refine Lin.bind (Lin.lift Takes.read_u8.shrinks) fun _ => ?_
  refine Lin.ite (Lin.bind (Lin.lift (Shrinks.liftOut _)) fun _ => Lin.pure _) ?_
  refine Lin.bind (Lin.plain (PubAckProperties.shrinks mode) _) fun _ => ?_
  exact Lin.bind (Lin.lift (Shrinks.liftOut _)) fun _ => Lin.pure _

theorem PubRec.linA : LinA h.fixed_header_len (PubRec.readC mode h) := by
  refine LinA.advance fun _ => ?_
  refine Lin.bind (Lin.lift Takes.read_u16.shrinks) fun _ => ?_
  refine Lin.ite (Lin.pure _) ?_
  refine Lin.bind (Lin.lift Takes.read_u8.shrinks) fun _ => ?_
  refine Lin.ite (Lin.bind (Lin.lift (Shrinks.liftOut _)) fun _ => Lin.pure _) ?_
  refine Lin.bind (Lin.plain (PubRecProperties.shrinks mode) _) fun _ => ?_
  exact Lin.bind (Lin.lift (Shrinks.liftOut _)) fun _ => Lin.pure _

theorem PubRel.linA : LinA h.fixed_header_len (PubRel.readC mode h) := by
  refine LinA.advance fun _ => ?_
  refine Lin.bind (Lin.lift Takes.read_u16.shrinks) fun _ => ?_
  refine Lin.ite (Lin.pure _) ?_
  refine Lin.bind (Lin.lift Takes.read_u8.shrinks) fun _ => ?_
  refine Lin.ite (Lin.bind (Lin.lift (Shrinks.liftOut _)) fun _ => Lin.pure _) ?_
  refine Lin.bind (Lin.plain (PubRelProperties.shrinks mode) _) fun _ => ?_
  exact Lin.bind (Lin.lift (Shrinks.liftOut _)) fun _ => Lin.pure _

theorem PubComp.linA : LinA h.fixed_header_len (PubComp.readC mode h) := by
  refine LinA.advance fun _ => ?_
  refine Lin.bind (Lin.lift Takes.read_u16.shrinks) fun _ => ?_
  refine Lin.ite (Lin.pure _) ?_
  refine Lin.bind (Lin.lift Takes.read_u8.shrinks) fun _ => ?_
  refine Lin.ite (Lin.bind (Lin.lift (Shrinks.liftOut _)) fun _ => Lin.pure _) ?_
  refine Lin.bind (Lin.plain (PubCompProperties.shrinks mode) _) fun _ => ?_
  exact Lin.bind (Lin.lift (Shrinks.liftOut _)) fun _ => Lin.pure _

theorem Takes.filter : Takes (Filter.readOne mode) := by
  unfold Filter.readOne
  refine Takes.bind (Takes.read_mqtt_string _) fun _ => ?_
  refine Shrinks.bind Takes.read_u8.shrinks fun _ => ?_
  dsimp only
  split
  all_goals
    first
    | exact Shrinks.bind (Shrinks.throwE _) fun _ =>
        Shrinks.bind (Good.qosOrErr _).shrinks fun _ => Shrinks.pure _
    | exact Shrinks.bind (Shrinks.pure _) fun _ =>
        Shrinks.bind (Good.qosOrErr _).shrinks fun _ => Shrinks.pure _

theorem Subscribe.linA : LinA h.fixed_header_len (Subscribe.readC mode h) := by
  refine LinA.advance fun _ => ?_
  refine Lin.bind (Lin.lift Takes.read_u16.shrinks) fun _ => ?_
  refine Lin.bind (Lin.readPropsC (fun p t s c => SubscribeProperties.lin mode p t c s) _) fun _ => ?_
  refine Lin.bind (Lin.lift Shrinks.getBuf) fun _ => ?_
  refine Lin.bind (Lin.listLoopC (Takes.filter mode) _ _) fun l => ?_
  cases l with
  | nil => exact Lin.lift (Shrinks.throwE _)
  | cons _ _ => exact Lin.pure _

theorem SubAck.linA : LinA h.fixed_header_len (SubAck.readC mode h) := by
  refine LinA.advance fun _ => ?_
  refine Lin.bind (Lin.lift Takes.read_u16.shrinks) fun _ => ?_
  refine Lin.bind (Lin.plain (SubAckProperties.shrinks mode) _) fun _ => ?_
  refine Lin.bind (Lin.lift Shrinks.getBuf) fun _ => ?_
  refine Lin.ite (Lin.lift (Shrinks.throwE _)) ?_
  exact Lin.bind (Lin.listLoopC (Takes.bind Takes.read_u8 fun _ => Shrinks.liftOut _) _ _)
    fun _ => Lin.pure _

theorem Unsubscribe.linA : LinA h.fixed_header_len (Unsubscribe.readC mode h) := by
  refine LinA.advance fun _ => ?_
  refine Lin.bind (Lin.lift Takes.read_u16.shrinks) fun _ => ?_
  refine Lin.bind (Lin.plain (UnsubscribeProperties.shrinks mode) _) fun _ => ?_
  refine Lin.bind (Lin.lift Shrinks.getBuf) fun _ => ?_
  exact Lin.bind (Lin.listLoopC (Takes.read_mqtt_string mode) _ _) fun _ => Lin.pure _

theorem UnsubAck.linA : LinA h.fixed_header_len (UnsubAck.readC mode h) := by
  refine LinA.advance fun _ => ?_
  refine Lin.bind (Lin.lift Takes.read_u16.shrinks) fun _ => ?_
  refine Lin.bind (Lin.plain (UnsubAckProperties.shrinks mode) _) fun _ => ?_
  refine Lin.bind (Lin.lift Shrinks.getBuf) fun _ => ?_
  refine Lin.ite (Lin.lift (Shrinks.throwE _)) ?_
  exact Lin.bind (Lin.listLoopC (Takes.bind Takes.read_u8 fun _ => Shrinks.liftOut _) _ _)
    fun _ => Lin.pure _

theorem Disconnect.linA : LinA h.fixed_header_len (Disconnect.readC mode h) := by
  refine LinA.advance fun _ => ?_
  refine Lin.ite (Lin.lift (Shrinks.throwE _)) (Lin.ite (Lin.lift (Shrinks.throwE _)) ?_)
  refine Lin.ite (Lin.pure _) ?_
  refine Lin.bind (Lin.lift Takes.read_u8.shrinks) fun _ => ?_
  refine Lin.bind (Lin.lift (Shrinks.liftOut _)) fun _ => ?_
  exact Lin.bind (Lin.plain (DisconnectProperties.shrinks mode) _) fun _ => Lin.pure _

/-- The body of a frame. -/
theorem readBodyC_count (t : PacketType) {packet : Bytes} (hp : h.fixed_header_len ≤ packet.length)
    (b : Bytes) :
    (Packet.readBodyC mode h t packet b).2 + h.fixed_header_len ≤ packet.length + 4 ∧
      (Packet.readBodyC mode h t packet b).1.2 = b ∧
      ∀ a, (Packet.readBodyC mode h t packet b).1.1 = .ok a →
        (Packet.readBodyC mode h t packet b).2 + h.fixed_header_len ≤ packet.length := by
  have key : ∀ {α : Type} {m : MC α} (f : α → Packet), LinA h.fixed_header_len m →
      ((onOwnedC packet m >>= fun a => (pure (f a) : MC Packet)) b).2 + h.fixed_header_len
        ≤ packet.length + 4 ∧ ((onOwnedC packet m >>= fun a => (pure (f a) : MC Packet)) b).1.2 = b ∧
      ∀ a, ((onOwnedC packet m >>= fun a => (pure (f a) : MC Packet)) b).1.1 = .ok a →
        ((onOwnedC packet m >>= fun a => (pure (f a) : MC Packet)) b).2 + h.fixed_header_len
          ≤ packet.length := by
    intro α m f hm
    have := hm packet hp
    rw [MC.bind_apply]
    rw [show onOwnedC packet m b = (((m packet).1.1, b), (m packet).2) from rfl]
    rcases hr : m packet with ⟨⟨o, r⟩, n⟩
    rw [hr] at this
    cases o with
    | ok a => exact ⟨this.1, rfl, fun _ _ => this.2 a rfl⟩
    | _ => exact ⟨this.1, rfl, fun _ h => by simp at h⟩
  cases t with
  | Connect => exact key (fun x => .Connect x.1 x.2.1 x.2.2) (Connect.linA mode h)
  | ConnAck => exact key Packet.ConnAck (ConnAck.linA mode h)
  | Publish => exact key Packet.Publish (Publish.linA mode h)
  | PubAck => exact key Packet.PubAck (PubAck.linA mode h)
  | PubRec => exact key Packet.PubRec (PubRec.linA mode h)
  | PubRel => exact key Packet.PubRel (PubRel.linA mode h)
  | PubComp => exact key Packet.PubComp (PubComp.linA mode h)
  | Subscribe => exact key Packet.Subscribe (Subscribe.linA mode h)
  | SubAck => exact key Packet.SubAck (SubAck.linA mode h)
  | Unsubscribe => exact key Packet.Unsubscribe (Unsubscribe.linA mode h)
  | UnsubAck => exact key Packet.UnsubAck (UnsubAck.linA mode h)
  | Disconnect => exact key Packet.Disconnect (Disconnect.linA mode h)
  | PingReq =>
    exact ⟨by show 0 + _ ≤ _; omega, rfl, fun _ _ => by show 0 + _ ≤ _; omega⟩
  | PingResp =>
    exact ⟨by show 0 + _ ≤ _; omega, rfl, fun _ _ => by show 0 + _ ≤ _; omega⟩

end

/-- The header. -/
theorem checkC_count (b : Bytes) (max : Option Nat) :
    (checkC b max).2 ≤ 4 ∧ ∀ h, (checkC b max).1 = .ok h →
      (checkC b max).2 + 1 = h.fixed_header_len ∧ h.frame_length ≤ b.length := by
  have hp : (parse_fixed_headerC b).2 ≤ 4 ∧ ∀ h, (parse_fixed_headerC b).1 = .ok h →
      (parse_fixed_headerC b).2 + 1 = h.fixed_header_len := by
    unfold parse_fixed_headerC
    dsimp only
    split
    · simp
    · cases b with
      | nil => simp
      | cons x b =>
        have hle := lengthC_le b
        dsimp only
        rcases hl : lengthC b with ⟨o, n⟩
        rw [hl] at hle
        cases o with
        | ok y =>
          obtain ⟨ll, l⟩ := y
          have := lengthC_ok (b := b) (n := ll) (v := l) (by rw [hl])
          rw [hl] at this
          refine ⟨hle, fun h hh => ?_⟩
          simp only [Out.ok.injEq] at hh
          subst hh
          show n + 1 = ll + 1
          exact congrArg (· + 1) this
        | _ => exact ⟨hle, fun _ h => by simp at h⟩
  unfold checkC
  dsimp only
  rcases hq : parse_fixed_headerC b with ⟨o, n⟩
  rw [hq] at hp
  cases o with
  | ok h =>
    have h1 := hp.2 h rfl
    cases max with
    | none =>
      dsimp only
      split
      · exact ⟨hp.1, fun _ h => by simp at h⟩
      · refine ⟨hp.1, fun h' hh => ?_⟩
        simp only [Out.ok.injEq] at hh
        subst hh
        exact ⟨h1, by omega⟩
    | some m =>
      by_cases hm : h.remaining_len > m
      · simp only [if_pos hm]
        exact ⟨hp.1, fun _ h => by simp at h⟩
      · simp only [if_neg hm]
        split
        · exact ⟨hp.1, fun _ h => by simp at h⟩
        · refine ⟨hp.1, fun h' hh => ?_⟩
          simp only [Out.ok.injEq] at hh
          subst hh
          exact ⟨h1, by omega⟩
  | _ => exact ⟨hp.1, fun _ h => by simp at h⟩

/-- One call. -/
theorem readC_count (mode : StrMode) (max : Option Nat) (b : Bytes) :
    (Packet.readC mode max b).2 + (Packet.readC mode max b).1.2.length ≤ b.length + 4 ∧
      ∀ a, (Packet.readC mode max b).1.1 = .ok a →
        (Packet.readC mode max b).2 + (Packet.readC mode max b).1.2.length < b.length := by
  obtain ⟨hc, hok⟩ := checkC_count b max
  generalize hr : Packet.readC mode max b = r
  unfold Packet.readC at hr
  rw [MC.bind_apply, show lift getBuf b = ((.ok b, b), 0) from rfl] at hr
  dsimp only at hr
  rw [MC.bind_apply, show checkMC b max b = (((checkC b max).1, b), (checkC b max).2) from rfl] at hr
  rcases hq : checkC b max with ⟨o, n⟩
  rw [hq] at hc hok hr
  cases o with
  | ok h =>
    obtain ⟨h1, h2⟩ := hok h rfl
    dsimp only at hr h1 hc
    have hf : h.frame_length = h.fixed_header_len + h.remaining_len := rfl
    rw [MC.bind_apply,
      show lift (splitTo h.frame_length) b = (splitTo h.frame_length b, 0) from rfl] at hr
    unfold splitTo at hr
    rw [if_pos h2] at hr
    dsimp only at hr
    have hd : (b.drop h.frame_length).length = b.length - h.frame_length := List.length_drop ..
    rw [MC.bind_apply, show lift (liftOut h.packet_type) (b.drop h.frame_length) =
      ((h.packet_type, b.drop h.frame_length), 0) from rfl] at hr
    cases ht : h.packet_type with
    | ok t =>
      rw [ht] at hr
      dsimp only at hr
      by_cases hz : h.remaining_len = 0 ∧ t ≠ .Disconnect
      · rw [if_pos hz] at hr
        subst hr
        have hs : ∀ e : Err, (0 + (n + (0 + (0 + (lift (throwE e : M Packet)
            (b.drop h.frame_length)).2)))) = n := fun _ => by
          show 0 + (n + (0 + (0 + 0))) = n; omega
        cases t <;> first
          | (refine ⟨?_, fun _ _ => ?_⟩
             · show 0 + (n + (0 + (0 + 0))) + (b.drop h.frame_length).length ≤ _; omega
             · show 0 + (n + (0 + (0 + 0))) + (b.drop h.frame_length).length < _; omega)
      · rw [if_neg hz] at hr
        subst hr
        have hl : (b.take h.frame_length).length = h.frame_length := by
          rw [List.length_take]; omega
        obtain ⟨k1, k2, k3⟩ := readBodyC_count mode h t (packet := b.take h.frame_length)
          (by omega) (b.drop h.frame_length)
        dsimp only
        rw [k2]
        exact ⟨by omega, fun a ha => by have := k3 a ha; omega⟩
    | _ =>
      rw [ht] at hr
      subst hr
      exact ⟨by dsimp only; omega, fun _ h => by simp at h⟩
  | _ =>
    subst hr
    exact ⟨by dsimp only; omega, fun _ h => by simp at h⟩

end Mqtt
