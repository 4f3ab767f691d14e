import Verif.Proofs.CostWrite
/-
The number of iterations of the counting encoder.
-/
namespace Mqtt

open MC (lift tick erase)

/-- On success the buffer has grown by at least `d` bytes. -/
def Grows {α : Type} (m : M α) (d : Nat) : Prop :=
  ∀ b a b', m b = (.ok a, b') → b.length + d ≤ b'.length

theorem grows_pure {α : Type} (a : α) : Grows (pure a : M α) 0 := by
  intro b a' b' h
  cases (Prod.mk.inj h).2
  exact Nat.le_refl _

theorem grows_bind {α β : Type} {m : M α} {f : α → M β} {d d' : Nat} (h : Grows m d)
    (h' : ∀ a, Grows (f a) d') : Grows (m >>= f) (d + d') := by
  intro b a b' e
  have e : M.bind m f b = (.ok a, b') := e
  unfold M.bind at e
  rcases hm : m b with ⟨o, b1⟩
  rw [hm] at e
  cases o with
  | ok x =>
    have h1 := h b x b1 hm
    have h2 := h' x b1 a b' e
    omega
  | _ => cases (Prod.mk.inj e).1

theorem grows_mono {α : Type} {m : M α} {d d' : Nat} (h : Grows m d) (hd : d' ≤ d) :
    Grows m d' := by
  intro b a b' e
  have := h b a b' e
  omega

theorem grows_put (x : Bytes) : Grows (putBytes x) x.length := by
  intro b a b' h
  cases (Prod.mk.inj h).2
  rw [List.length_append]
  omega

theorem grows_u8 (x : UInt8) : Grows (putU8 x) 1 := by
  intro b a b' h
  cases (Prod.mk.inj h).2
  rw [List.length_append]
  exact Nat.le_refl _

theorem grows_u16 (x : UInt16) : Grows (putU16 x) 2 := by
  intro b a b' h
  cases (Prod.mk.inj h).2
  rw [List.length_append]
  exact Nat.le_refl _

theorem grows_u32 (x : UInt32) : Grows (putU32 x) 4 := by
  intro b a b' h
  cases (Prod.mk.inj h).2
  rw [List.length_append]
  exact Nat.le_refl _

theorem grows_throw {α : Type} (e : Err) (d : Nat) : Grows (throwE e : M α) d := by
  intro b a b' h
  cases (Prod.mk.inj h).1

theorem grows_liftOut {α : Type} (o : Out α) : Grows (liftOut o) 0 := by
  intro b a b' h
  cases (Prod.mk.inj h).2
  exact Nat.le_refl _

theorem grows_str (x : MqttString) : Grows (write_mqtt_string x) 2 := by
  unfold write_mqtt_string write_mqtt_bytes
  split
  · exact grows_mono (grows_bind (grows_u16 _) fun _ => grows_put _) (by omega)
  · exact grows_throw _ _

theorem grows_bytes (x : MqttString) : Grows (write_mqtt_bytes x) 2 := grows_str x

theorem grows_optStr (t : PropertyType) (o : Option Bytes) : Grows (writeOptStr t o) 0 := by
  cases o with
  | none => exact grows_pure _
  | some v => exact grows_mono (grows_bind (grows_u8 _) fun _ => grows_str _) (by omega)

theorem grows_optU8 (t : PropertyType) (o : Option UInt8) : Grows (writeOptU8 t o) 0 := by
  cases o with
  | none => exact grows_pure _
  | some v => exact grows_mono (grows_bind (grows_u8 _) fun _ => grows_u8 _) (by omega)

theorem grows_optU16 (t : PropertyType) (o : Option UInt16) : Grows (writeOptU16 t o) 0 := by
  cases o with
  | none => exact grows_pure _
  | some v => exact grows_mono (grows_bind (grows_u8 _) fun _ => grows_u16 _) (by omega)

theorem grows_optU32 (t : PropertyType) (o : Option UInt32) : Grows (writeOptU32 t o) 0 := by
  cases o with
  | none => exact grows_pure _
  | some v => exact grows_mono (grows_bind (grows_u8 _) fun _ => grows_u32 _) (by omega)

theorem grows_filter (f : Filter) : Grows f.write 3 :=
  grows_bind (d := 2) (d' := 1) (grows_str _) fun _ => grows_u8 _

theorem grows_set (i : Nat) (x : UInt8) : Grows (setIndex i x) 0 := by
  intro b a b' h
  unfold setIndex at h
  split at h
  · cases (Prod.mk.inj h).2
    simp
  · cases (Prod.mk.inj h).1

theorem grows_login (l : Login) : Grows l.write 0 := by
  unfold Login.write
  refine grows_bind (d := 0) (d' := 0) ?_ fun _ => ?_
  · split
    · exact grows_pure _
    · exact grows_mono (grows_bind (grows_str _) fun _ => grows_pure _) (by omega)
  · split
    · exact grows_pure _
    · exact grows_mono (grows_bind (grows_str _) fun _ => grows_pure _) (by omega)

/-! ### Estimates -/

/-- At most `hi` iterations in any case; on success at least `lo`, and `c` less than twice the
number of bytes added. -/
def Est {α : Type} (m : MC α) (lo hi : Nat) (c : Int) : Prop :=
  ∀ b, (m b).2 ≤ hi ∧ ∀ a b', (m b).1 = (.ok a, b') →
    lo ≤ (m b).2 ∧ 2 * (b.length : Int) + (m b).2 + c ≤ 2 * b'.length

theorem Est.mono {α : Type} {m : MC α} {lo hi lo' hi' : Nat} {c c' : Int} (h : Est m lo hi c)
    (h1 : lo' ≤ lo) (h2 : hi ≤ hi') (h3 : c' ≤ c) : Est m lo' hi' c' := by
  intro b
  refine ⟨Nat.le_trans (h b).1 h2, fun a b' e => ?_⟩
  have := (h b).2 a b' e
  omega

theorem est_pure {α : Type} (a : α) : Est (pure a : MC α) 0 0 0 := by
  intro b
  refine ⟨Nat.le_refl _, fun a' b' e => ?_⟩
  cases (Prod.mk.inj e).2
  exact ⟨Nat.le_refl _, by show _ + ((0 : Nat) : Int) + _ ≤ _; omega⟩

theorem est_tick : Est tick 1 1 (-1) := by
  intro b
  refine ⟨Nat.le_refl _, fun a' b' e => ?_⟩
  cases (Prod.mk.inj e).2
  exact ⟨Nat.le_refl _, by show _ + ((1 : Nat) : Int) + _ ≤ _; omega⟩

theorem est_ticks (n : Nat) : Est (ticks n) n n (-n) := by
  intro b
  refine ⟨Nat.le_refl _, fun a' b' e => ?_⟩
  cases (Prod.mk.inj e).2
  exact ⟨Nat.le_refl _, by show _ + ((n : Nat) : Int) + _ ≤ _; omega⟩

theorem est_lift {α : Type} {m : M α} {d : Nat} (h : Grows m d) : Est (lift m) 0 0 (2 * d) := by
  intro b
  refine ⟨Nat.le_refl _, fun a' b' e => ⟨Nat.le_refl _, ?_⟩⟩
  have := h b a' b' e
  show _ + ((0 : Nat) : Int) + _ ≤ _
  omega

theorem est_bind_post {α β : Type} {m : MC α} {f : α → MC β} {l1 h1 l2 h2 : Nat} {c1 c2 : Int}
    {Q : α → Prop} (hQ : ∀ b a b', (m b).1 = (.ok a, b') → Q a) (hm : Est m l1 h1 c1) (hf : ∀ a, Q a → Est (f a) l2 h2 c2) :
    Est (m >>= f) (l1 + l2) (h1 + h2) (c1 + c2) := by
  intro b
  have e : (m >>= f) b = MC.bind m f b := rfl
  rw [e]
  unfold MC.bind
  have hb := hm b
  rcases hmb : m b with ⟨⟨o, b1⟩, n⟩
  rw [hmb] at hb
  cases o with
  | ok x =>
    have h2 := hf x (hQ b x b1 (by rw [hmb])) b1
    have h1 := hb.2 x b1 rfl
    refine ⟨Nat.add_le_add hb.1 h2.1, fun a b' e => ?_⟩
    have h3 := h2.2 a b' e
    dsimp only at h1 ⊢
    omega
  | _ => exact ⟨Nat.le_trans hb.1 (Nat.le_add_right _ _), fun a b' e => by cases (Prod.mk.inj e).1⟩

theorem est_bind {α β : Type} {m : MC α} {f : α → MC β} {l1 h1 l2 h2 : Nat} {c1 c2 : Int}
    (hm : Est m l1 h1 c1) (hf : ∀ a, Est (f a) l2 h2 c2) :
    Est (m >>= f) (l1 + l2) (h1 + h2) (c1 + c2) :=
  est_bind_post (Q := fun _ => True) (fun _ _ _ _ => trivial) hm fun a _ => hf a

theorem est_optTicks {σ : Type} (n : σ → Nat) (o : Option σ) :
    Est (optTicks n o) (o.elim 0 n) (o.elim 0 n) (-(o.elim 0 n : Nat)) := by
  cases o with
  | none => exact est_ticks 0
  | some p => exact est_ticks _

theorem est_remLoop : ∀ k fuel x count, 0 < k → x < 128 ^ k → k ≤ fuel →
    Est (writeRemLoopC fuel x count) 1 k 1 := by
  intro k
  induction k with
  | zero => intro _ _ _ h; omega
  | succ k ih =>
    intro fuel x count _ hx hf
    obtain ⟨fuel, rfl⟩ : ∃ f, fuel = f + 1 := ⟨fuel - 1, by omega⟩
    rw [writeRemLoopC]
    dsimp only
    by_cases h0 : x / 128 = 0
    · simp only [h0, if_true]
      exact (est_bind est_tick fun _ => est_bind (est_lift (grows_u8 _)) fun _ => est_pure _).mono
        (by omega) (by omega) (by omega)
    · simp only [h0, if_false]
      have hk : 0 < k := by
        rcases Nat.eq_zero_or_pos k with rfl | h
        · simp only [Nat.zero_add, Nat.pow_one] at hx; omega
        · exact h
      have hx' : x / 128 < 128 ^ k := by rw [Nat.pow_succ] at hx; omega
      exact (est_bind est_tick fun _ => est_bind (est_lift (grows_u8 _)) fun _ =>
        ih fuel (x / 128) _ hk hx' (by omega)).mono (by omega) (by omega) (by omega)

theorem est_rem (n : Nat) : Est (write_remaining_lengthC n) 1 4 1 := by
  unfold write_remaining_lengthC
  split
  · intro b
    exact ⟨Nat.zero_le _, fun a b' e => by cases (Prod.mk.inj e).1⟩
  · exact est_remLoop 4 10 n 0 (by omega) (by omega) (by omega)

theorem est_userProps (l : List (MqttString × MqttString)) :
    Est (writeUserPropsC l) l.length l.length (9 * l.length) := by
  induction l with
  | nil => exact est_pure _
  | cons x l ih =>
    obtain ⟨k, v⟩ := x
    exact (est_bind est_tick fun _ => est_bind (est_lift (grows_u8 _)) fun _ =>
      est_bind (est_lift (grows_str _)) fun _ => est_bind (est_lift (grows_str _)) fun _ => ih).mono
      (by simp only [List.length_cons]; omega) (by simp only [List.length_cons]; omega)
      (by simp only [List.length_cons]; omega)

theorem est_subIds (l : List Nat) :
    Est (writeSubIdsC l) l.length (5 * l.length) (2 * l.length) := by
  induction l with
  | nil => exact est_pure _
  | cons x l ih =>
    exact (est_bind est_tick fun _ => est_bind (est_lift (grows_u8 _)) fun _ =>
      est_bind (est_rem _) fun _ => ih).mono
      (by simp only [List.length_cons]; omega) (by simp only [List.length_cons]; omega)
      (by simp only [List.length_cons]; omega)

theorem est_writeAll (l : List Filter) :
    Est (Filter.writeAllC l) l.length l.length (5 * l.length) := by
  induction l with
  | nil => exact est_pure _
  | cons x l ih =>
    exact (est_bind est_tick fun _ => est_bind (est_lift (grows_filter _)) fun _ => ih).mono
      (by simp only [List.length_cons]; omega) (by simp only [List.length_cons]; omega)
      (by simp only [List.length_cons]; omega)

theorem est_writeFilters (l : List MqttString) :
    Est (Unsubscribe.writeFiltersC l) l.length l.length (3 * l.length) := by
  induction l with
  | nil => exact est_pure _
  | cons x l ih =>
    exact (est_bind est_tick fun _ => est_bind (est_lift (grows_str _)) fun _ => ih).mono
      (by simp only [List.length_cons]; omega) (by simp only [List.length_cons]; omega)
      (by simp only [List.length_cons]; omega)

/-- A bound for the property writers passes to optional sections. -/
theorem est_optProps {σ : Type} {w : σ → MC Unit} {n : σ → Nat} {k e : Nat} (he : 4 ≤ e)
    (h : ∀ p, Est (w p) (n p) (k * n p + e) (n p + 1)) (o : Option σ) :
    Est (writeOptPropsC w o) (o.elim 0 n) (k * o.elim 0 n + e) ((o.elim 0 n : Nat) + 1) := by
  cases o with
  | none =>
    refine (est_bind (est_rem 0) fun _ => est_pure _).mono (Nat.zero_le _) ?_ ?_
    · simp only [Option.elim_none]; omega
    · simp only [Option.elim_none]; omega
  | some p => exact h p

theorem ConnectProperties.est_lenC (p : ConnectProperties) : Est p.lenC p.user_properties.length p.user_properties.length (-(p.user_properties.length : Nat)) :=
  (est_bind (est_ticks _) fun _ => est_pure _).mono (by omega) (by omega) (by omega)

theorem ConnectProperties.est_writeC (p : ConnectProperties) :
    Est p.writeC p.user_properties.length (2 * p.user_properties.length + 4) ((p.user_properties.length : Nat) + 1) :=
  (est_bind (ConnectProperties.est_lenC p) fun _ =>
    est_bind (est_rem _) fun _ =>
    est_bind (est_lift (grows_optU32 _ _)) fun _ =>
    est_bind (est_lift (grows_optU16 _ _)) fun _ =>
    est_bind (est_lift (grows_optU32 _ _)) fun _ =>
    est_bind (est_lift (grows_optU16 _ _)) fun _ =>
    est_bind (est_lift (grows_optU8 _ _)) fun _ =>
    est_bind (est_lift (grows_optU8 _ _)) fun _ =>
    est_bind (est_userProps _) fun _ =>
    est_bind (est_lift (grows_optStr _ _)) fun _ =>
    est_lift (grows_optStr _ _)).mono (by omega) (by omega) (by omega)

theorem LastWillProperties.est_lenC (p : LastWillProperties) : Est p.lenC p.user_properties.length p.user_properties.length (-(p.user_properties.length : Nat)) :=
  (est_bind (est_ticks _) fun _ => est_pure _).mono (by omega) (by omega) (by omega)

theorem LastWillProperties.est_writeC (p : LastWillProperties) :
    Est p.writeC p.user_properties.length (2 * p.user_properties.length + 4) ((p.user_properties.length : Nat) + 1) :=
  (est_bind (LastWillProperties.est_lenC p) fun _ =>
    est_bind (est_rem _) fun _ =>
    est_bind (est_lift (grows_optU32 _ _)) fun _ =>
    est_bind (est_lift (grows_optU8 _ _)) fun _ =>
    est_bind (est_lift (grows_optU32 _ _)) fun _ =>
    est_bind (est_lift (grows_optStr _ _)) fun _ =>
    est_bind (est_lift (grows_optStr _ _)) fun _ =>
    est_bind (est_lift (grows_optStr _ _)) fun _ =>
    est_userProps _).mono (by omega) (by omega) (by omega)

theorem ConnAckProperties.est_lenC (p : ConnAckProperties) : Est p.lenC p.user_properties.length p.user_properties.length (-(p.user_properties.length : Nat)) :=
  (est_bind (est_ticks _) fun _ => est_pure _).mono (by omega) (by omega) (by omega)

theorem ConnAckProperties.est_writeC (p : ConnAckProperties) :
    Est p.writeC p.user_properties.length (2 * p.user_properties.length + 4) ((p.user_properties.length : Nat) + 1) :=
  (est_bind (ConnAckProperties.est_lenC p) fun _ =>
    est_bind (est_rem _) fun _ =>
    est_bind (est_lift (grows_optU32 _ _)) fun _ =>
    est_bind (est_lift (grows_optU16 _ _)) fun _ =>
    est_bind (est_lift (grows_optU8 _ _)) fun _ =>
    est_bind (est_lift (grows_optU8 _ _)) fun _ =>
    est_bind (est_lift (grows_optU32 _ _)) fun _ =>
    est_bind (est_lift (grows_optStr _ _)) fun _ =>
    est_bind (est_lift (grows_optU16 _ _)) fun _ =>
    est_bind (est_lift (grows_optStr _ _)) fun _ =>
    est_bind (est_userProps _) fun _ =>
    est_bind (est_lift (grows_optU8 _ _)) fun _ =>
    est_bind (est_lift (grows_optU8 _ _)) fun _ =>
    est_bind (est_lift (grows_optU8 _ _)) fun _ =>
    est_bind (est_lift (grows_optU16 _ _)) fun _ =>
    est_bind (est_lift (grows_optStr _ _)) fun _ =>
    est_bind (est_lift (grows_optStr _ _)) fun _ =>
    est_bind (est_lift (grows_optStr _ _)) fun _ =>
    est_lift (grows_optStr _ _)).mono (by omega) (by omega) (by omega)

theorem PublishProperties.est_lenC (p : PublishProperties) : Est p.lenC (p.user_properties.length + p.subscription_identifiers.length) (p.user_properties.length + p.subscription_identifiers.length) (-((p.user_properties.length + p.subscription_identifiers.length) : Nat)) :=
  (est_bind (est_ticks _) fun _ => est_pure _).mono (by omega) (by omega) (by omega)

theorem PublishProperties.est_writeC (p : PublishProperties) :
    Est p.writeC (p.user_properties.length + p.subscription_identifiers.length) (6 * (p.user_properties.length + p.subscription_identifiers.length) + 4) (((p.user_properties.length + p.subscription_identifiers.length) : Nat) + 1) :=
  (est_bind (PublishProperties.est_lenC p) fun _ =>
    est_bind (est_rem _) fun _ =>
    est_bind (est_lift (grows_optU8 _ _)) fun _ =>
    est_bind (est_lift (grows_optU32 _ _)) fun _ =>
    est_bind (est_lift (grows_optU16 _ _)) fun _ =>
    est_bind (est_lift (grows_optStr _ _)) fun _ =>
    est_bind (est_lift (grows_optStr _ _)) fun _ =>
    est_bind (est_userProps _) fun _ =>
    est_bind (est_subIds _) fun _ =>
    est_lift (grows_optStr _ _)).mono (by omega) (by omega) (by omega)

theorem PubAckProperties.est_lenC (p : PubAckProperties) : Est p.lenC p.user_properties.length p.user_properties.length (-(p.user_properties.length : Nat)) :=
  (est_bind (est_ticks _) fun _ => est_pure _).mono (by omega) (by omega) (by omega)

theorem PubAckProperties.est_writeC (p : PubAckProperties) :
    Est p.writeC p.user_properties.length (2 * p.user_properties.length + 4) ((p.user_properties.length : Nat) + 1) :=
  (est_bind (PubAckProperties.est_lenC p) fun _ =>
    est_bind (est_rem _) fun _ =>
    est_bind (est_lift (grows_optStr _ _)) fun _ =>
    est_userProps _).mono (by omega) (by omega) (by omega)

theorem PubRecProperties.est_lenC (p : PubRecProperties) : Est p.lenC p.user_properties.length p.user_properties.length (-(p.user_properties.length : Nat)) :=
  (est_bind (est_ticks _) fun _ => est_pure _).mono (by omega) (by omega) (by omega)

theorem PubRecProperties.est_writeC (p : PubRecProperties) :
    Est p.writeC p.user_properties.length (2 * p.user_properties.length + 4) ((p.user_properties.length : Nat) + 1) :=
  (est_bind (PubRecProperties.est_lenC p) fun _ =>
    est_bind (est_rem _) fun _ =>
    est_bind (est_lift (grows_optStr _ _)) fun _ =>
    est_userProps _).mono (by omega) (by omega) (by omega)

theorem PubRelProperties.est_lenC (p : PubRelProperties) : Est p.lenC p.user_properties.length p.user_properties.length (-(p.user_properties.length : Nat)) :=
  (est_bind (est_ticks _) fun _ => est_pure _).mono (by omega) (by omega) (by omega)

theorem PubRelProperties.est_writeC (p : PubRelProperties) :
    Est p.writeC p.user_properties.length (2 * p.user_properties.length + 4) ((p.user_properties.length : Nat) + 1) :=
  (est_bind (PubRelProperties.est_lenC p) fun _ =>
    est_bind (est_rem _) fun _ =>
    est_bind (est_lift (grows_optStr _ _)) fun _ =>
    est_userProps _).mono (by omega) (by omega) (by omega)

theorem PubCompProperties.est_lenC (p : PubCompProperties) : Est p.lenC p.user_properties.length p.user_properties.length (-(p.user_properties.length : Nat)) :=
  (est_bind (est_ticks _) fun _ => est_pure _).mono (by omega) (by omega) (by omega)

theorem PubCompProperties.est_writeC (p : PubCompProperties) :
    Est p.writeC p.user_properties.length (2 * p.user_properties.length + 4) ((p.user_properties.length : Nat) + 1) :=
  (est_bind (PubCompProperties.est_lenC p) fun _ =>
    est_bind (est_rem _) fun _ =>
    est_bind (est_lift (grows_optStr _ _)) fun _ =>
    est_userProps _).mono (by omega) (by omega) (by omega)

theorem SubscribeProperties.est_lenC (p : SubscribeProperties) : Est p.lenC p.user_properties.length p.user_properties.length (-(p.user_properties.length : Nat)) :=
  (est_bind (est_ticks _) fun _ => est_pure _).mono (by omega) (by omega) (by omega)

theorem SubscribeProperties.est_writeC (p : SubscribeProperties) :
    Est p.writeC p.user_properties.length (2 * p.user_properties.length + 8) ((p.user_properties.length : Nat) + 1) := by
  refine (est_bind (SubscribeProperties.est_lenC p) fun _ => est_bind (est_rem _) fun _ =>
    (?_ : Est _ p.user_properties.length (p.user_properties.length + 4) (9 * p.user_properties.length))).mono
    (by omega) (by omega) (by omega)
  cases p.id with
  | none => exact (est_userProps _).mono (Nat.le_refl _) (by omega) (by omega)
  | some i =>
    exact (est_bind (est_lift (grows_u8 _)) fun _ => est_bind (est_rem _) fun _ =>
      est_userProps _).mono (by omega) (by omega) (by omega)

theorem SubAckProperties.est_lenC (p : SubAckProperties) : Est p.lenC p.user_properties.length p.user_properties.length (-(p.user_properties.length : Nat)) :=
  (est_bind (est_ticks _) fun _ => est_pure _).mono (by omega) (by omega) (by omega)

theorem SubAckProperties.est_writeC (p : SubAckProperties) :
    Est p.writeC p.user_properties.length (2 * p.user_properties.length + 4) ((p.user_properties.length : Nat) + 1) :=
  (est_bind (SubAckProperties.est_lenC p) fun _ =>
    est_bind (est_rem _) fun _ =>
    est_bind (est_lift (grows_optStr _ _)) fun _ =>
    est_userProps _).mono (by omega) (by omega) (by omega)

theorem UnsubscribeProperties.est_lenC (p : UnsubscribeProperties) : Est p.lenC p.user_properties.length p.user_properties.length (-(p.user_properties.length : Nat)) :=
  (est_bind (est_ticks _) fun _ => est_pure _).mono (by omega) (by omega) (by omega)

theorem UnsubscribeProperties.est_writeC (p : UnsubscribeProperties) :
    Est p.writeC p.user_properties.length (2 * p.user_properties.length + 4) ((p.user_properties.length : Nat) + 1) :=
  (est_bind (UnsubscribeProperties.est_lenC p) fun _ =>
    est_bind (est_rem _) fun _ =>
    est_userProps _).mono (by omega) (by omega) (by omega)

theorem UnsubAckProperties.est_lenC (p : UnsubAckProperties) : Est p.lenC p.user_properties.length p.user_properties.length (-(p.user_properties.length : Nat)) :=
  (est_bind (est_ticks _) fun _ => est_pure _).mono (by omega) (by omega) (by omega)

theorem UnsubAckProperties.est_writeC (p : UnsubAckProperties) :
    Est p.writeC p.user_properties.length (2 * p.user_properties.length + 4) ((p.user_properties.length : Nat) + 1) :=
  (est_bind (UnsubAckProperties.est_lenC p) fun _ =>
    est_bind (est_rem _) fun _ =>
    est_bind (est_lift (grows_optStr _ _)) fun _ =>
    est_userProps _).mono (by omega) (by omega) (by omega)

theorem DisconnectProperties.est_lenC (p : DisconnectProperties) : Est p.lenC p.user_properties.length p.user_properties.length (-(p.user_properties.length : Nat)) :=
  (est_bind (est_ticks _) fun _ => est_pure _).mono (by omega) (by omega) (by omega)

theorem DisconnectProperties.est_writeC (p : DisconnectProperties) :
    Est p.writeC p.user_properties.length (2 * p.user_properties.length + 4) ((p.user_properties.length : Nat) + 1) :=
  (est_bind (DisconnectProperties.est_lenC p) fun _ =>
    est_bind (est_rem _) fun _ =>
    est_bind (est_lift (grows_optU32 _ _)) fun _ =>
    est_bind (est_lift (grows_optStr _ _)) fun _ =>
    est_bind (est_userProps _) fun _ =>
    est_lift (grows_optStr _ _)).mono (by omega) (by omega) (by omega)

theorem LastWill.est_writeC (x : LastWill) :
    Est x.writeC (x.properties.elim 0 fun q => q.user_properties.length)
      (2 * (x.properties.elim 0 fun q => q.user_properties.length) + 4)
      ((x.properties.elim 0 fun q => q.user_properties.length : Nat) + 1) :=
  (est_bind (est_optProps (n := fun q => q.user_properties.length) (by decide)
      LastWillProperties.est_writeC x.properties) fun _ =>
    est_bind (est_lift (grows_bytes _)) fun _ =>
    est_bind (est_lift (grows_bytes _)) fun _ =>
    est_pure _).mono (by omega) (by omega) (by omega)

theorem Connect.est_writeC (c : Connect) (w : Option LastWill) (l : Option Login) :
    Est (c.writeC w l) (Spec.listEntries (.Connect c w l))
      (7 * Spec.listEntries (.Connect c w l) + 12) 0 := by
  let N := c.properties.elim 0 fun q => q.user_properties.length
  let W := (w.bind fun x => x.properties).elim 0 fun q => q.user_properties.length
  have hN : Spec.listEntries (.Connect c w l) = N + W := by
    cases w <;> rfl
  rw [hN]
  have hl : Est (c.lenC w l) (N + W) (N + W) (-(N + W : Nat)) :=
    (est_bind (est_optTicks _ _) fun _ => est_bind (est_optTicks _ _) fun _ => est_pure _).mono
      (by omega) (by omega) (by omega)
  have hp := est_optProps (n := fun q => q.user_properties.length) (by decide)
    ConnectProperties.est_writeC c.properties
  unfold Connect.writeC
  refine (est_bind hl fun _ => est_bind (est_lift (grows_u8 _)) fun _ =>
    est_bind (est_rem _) fun _ => est_bind (est_lift (grows_str _)) fun _ =>
    est_bind (est_lift (grows_u8 _)) fun _ => est_bind (est_lift (grows_u8 _)) fun _ =>
    est_bind (est_lift (grows_u16 _)) fun _ => est_bind hp fun _ =>
    est_bind (est_lift (grows_str _)) fun _ => est_bind (?_ : Est _ W (2 * W + 4) W) fun _ =>
    est_bind (?_ : Est _ 0 0 0) fun _ =>
    est_bind (est_lift (grows_set _ _)) fun _ => est_pure _).mono
    (by omega) (by omega) (by omega)
  · cases w with
    | none => exact (est_pure _).mono (Nat.zero_le _) (Nat.zero_le _) (Int.le_refl _)
    | some x =>
      exact (est_bind (LastWill.est_writeC x) fun _ => est_pure _).mono
        (Nat.le_refl _) (Nat.le_refl _) (by show ((W : Nat) : Int) ≤ (W : Nat) + 1 + 0; omega)
  · cases l with
    | none => exact est_pure _
    | some x => exact est_bind (est_lift (grows_login x)) fun _ => est_pure _

theorem ConnAck.est_writeC (p : ConnAck) :
    Est p.writeC (Spec.listEntries (.ConnAck p)) (7 * Spec.listEntries (.ConnAck p) + 12) 0 := by
  let N := p.properties.elim 0 fun q => q.user_properties.length
  have hN : Spec.listEntries (.ConnAck p) = N := rfl
  have hl : Est p.lenC N N (-(N : Nat)) :=
    (est_bind (est_optTicks _ _) fun _ => est_pure _).mono (by omega) (by omega) (by omega)
  rw [hN]
  have ho := est_optProps (n := fun q => q.user_properties.length) (by decide)
    ConnAckProperties.est_writeC p.properties
  exact (est_bind (hl) fun _ =>
    est_bind (est_lift (grows_u8 _)) fun _ =>
    est_bind (est_rem _) fun _ =>
    est_bind (est_lift (grows_u8 _)) fun _ =>
    est_bind (est_lift (grows_liftOut _)) fun _ =>
    est_bind (est_lift (grows_u8 _)) fun _ =>
    est_bind (ho) fun _ =>
    est_pure _).mono
    (by omega) (by omega) (by omega)

theorem Publish.est_writeC (p : Publish) :
    Est p.writeC (Spec.listEntries (.Publish p)) (7 * Spec.listEntries (.Publish p) + 12) 0 := by
  let N := p.properties.elim 0 fun q => q.user_properties.length + q.subscription_identifiers.length
  have hN : Spec.listEntries (.Publish p) = N := rfl
  have hl : Est p.lenC N N (-(N : Nat)) :=
    (est_bind (est_optTicks _ _) fun _ => est_pure _).mono (by omega) (by omega) (by omega)
  rw [hN]
  have ho := est_optProps (n := fun q => q.user_properties.length + q.subscription_identifiers.length) (by decide)
    PublishProperties.est_writeC p.properties
  refine (est_bind hl fun _ => est_bind (est_lift (grows_u8 _)) fun _ => est_bind (est_rem _) fun _ =>
    est_bind (est_lift (grows_str _)) fun _ => (?_ : Est _ 0 (6 * N + 4) N)).mono
    (by omega) (by omega) (by omega)
  split
  · have hq : Est (lift (if p.pkid = 0 then throwE .PacketIdZero else putU16 p.pkid)) 0 0 0 := by
      split
      · exact est_lift (d := 0) (grows_throw _ _)
      · exact (est_lift (grows_u16 _)).mono (by omega) (by omega) (by omega)
    exact (est_bind hq fun _ => est_bind ho fun _ => est_bind (est_lift (grows_put _)) fun _ =>
      est_pure _).mono (lo' := 0) (hi' := 6 * N + 4) (c' := N) (by omega) (by omega) (by omega)
  · exact (est_bind ho fun _ => est_bind (est_lift (grows_put _)) fun _ =>
      est_pure _).mono (lo' := 0) (hi' := 6 * N + 4) (c' := N) (by omega) (by omega) (by omega)

theorem PubAck.est_writeC (p : PubAck) :
    Est p.writeC (Spec.listEntries (.PubAck p)) (7 * Spec.listEntries (.PubAck p) + 12) 0 := by
  let N := p.properties.elim 0 fun q => q.user_properties.length
  have hN : Spec.listEntries (.PubAck p) = N := rfl
  have hl : Est p.lenC N N (-(N : Nat)) :=
    (est_bind (est_optTicks _ _) fun _ => est_pure _).mono (by omega) (by omega) (by omega)
  rw [hN]
  have ho := est_optProps (n := fun q => q.user_properties.length) (by decide)
    PubAckProperties.est_writeC p.properties
  refine (est_bind hl fun _ => est_bind (est_lift (grows_u8 _)) fun _ => est_bind (est_rem _) fun _ =>
    est_bind (est_lift (grows_u16 _)) fun _ => (?_ : Est _ 0 (2 * N + 4) N)).mono
    (by omega) (by omega) (by omega)
  split
  · have h0 : N = 0 := by
      rename_i h
      show Option.elim p.properties 0 _ = 0
      rw [h.2]
      rfl
    exact (est_pure _).mono (by omega) (by omega) (by omega)
  · exact (est_bind (est_lift (grows_u8 _)) fun _ => est_bind ho fun _ => est_pure _).mono
      (by omega) (by omega) (by omega)

theorem PubRec.est_writeC (p : PubRec) :
    Est p.writeC (Spec.listEntries (.PubRec p)) (7 * Spec.listEntries (.PubRec p) + 12) 0 := by
  let N := p.properties.elim 0 fun q => q.user_properties.length
  have hN : Spec.listEntries (.PubRec p) = N := rfl
  have hl : Est p.lenC N N (-(N : Nat)) :=
    (est_bind (est_optTicks _ _) fun _ => est_pure _).mono (by omega) (by omega) (by omega)
  rw [hN]
  have ho := est_optProps (n := fun q => q.user_properties.length) (by decide)
    PubRecProperties.est_writeC p.properties
  refine (est_bind hl fun _ => est_bind (est_lift (grows_u8 _)) fun _ => est_bind (est_rem _) fun _ =>
    est_bind (est_lift (grows_u16 _)) fun _ => (?_ : Est _ 0 (2 * N + 4) N)).mono
    (by omega) (by omega) (by omega)
  split
  · have h0 : N = 0 := by
      rename_i h
      show Option.elim p.properties 0 _ = 0
      rw [h.2]
      rfl
    exact (est_pure _).mono (by omega) (by omega) (by omega)
  · exact (est_bind (est_lift (grows_u8 _)) fun _ => est_bind ho fun _ => est_pure _).mono
      (by omega) (by omega) (by omega)

theorem PubRel.est_writeC (p : PubRel) :
    Est p.writeC (Spec.listEntries (.PubRel p)) (7 * Spec.listEntries (.PubRel p) + 12) 0 := by
  let N := p.properties.elim 0 fun q => q.user_properties.length
  have hN : Spec.listEntries (.PubRel p) = N := rfl
  have hl : Est p.lenC N N (-(N : Nat)) :=
    (est_bind (est_optTicks _ _) fun _ => est_pure _).mono (by omega) (by omega) (by omega)
  rw [hN]
  have ho := est_optProps (n := fun q => q.user_properties.length) (by decide)
    PubRelProperties.est_writeC p.properties
  refine (est_bind hl fun _ => est_bind (est_lift (grows_u8 _)) fun _ => est_bind (est_rem _) fun _ =>
    est_bind (est_lift (grows_u16 _)) fun _ => (?_ : Est _ 0 (2 * N + 4) N)).mono
    (by omega) (by omega) (by omega)
  split
  · have h0 : N = 0 := by
      rename_i h
      show Option.elim p.properties 0 _ = 0
      rw [h.2]
      rfl
    exact (est_pure _).mono (by omega) (by omega) (by omega)
  · exact (est_bind (est_lift (grows_u8 _)) fun _ => est_bind ho fun _ => est_pure _).mono
      (by omega) (by omega) (by omega)

theorem PubComp.est_writeC (p : PubComp) :
    Est p.writeC (Spec.listEntries (.PubComp p)) (7 * Spec.listEntries (.PubComp p) + 12) 0 := by
  let N := p.properties.elim 0 fun q => q.user_properties.length
  have hN : Spec.listEntries (.PubComp p) = N := rfl
  have hl : Est p.lenC N N (-(N : Nat)) :=
    (est_bind (est_optTicks _ _) fun _ => est_pure _).mono (by omega) (by omega) (by omega)
  rw [hN]
  have ho := est_optProps (n := fun q => q.user_properties.length) (by decide)
    PubCompProperties.est_writeC p.properties
  refine (est_bind hl fun _ => est_bind (est_lift (grows_u8 _)) fun _ => est_bind (est_rem _) fun _ =>
    est_bind (est_lift (grows_u16 _)) fun _ => (?_ : Est _ 0 (2 * N + 4) N)).mono
    (by omega) (by omega) (by omega)
  split
  · have h0 : N = 0 := by
      rename_i h
      show Option.elim p.properties 0 _ = 0
      rw [h.2]
      rfl
    exact (est_pure _).mono (by omega) (by omega) (by omega)
  · exact (est_bind (est_lift (grows_u8 _)) fun _ => est_bind ho fun _ => est_pure _).mono
      (by omega) (by omega) (by omega)

theorem Subscribe.est_writeC (p : Subscribe) :
    Est p.writeC (Spec.listEntries (.Subscribe p)) (7 * Spec.listEntries (.Subscribe p) + 12) 0 := by
  let N := p.properties.elim 0 fun q => q.user_properties.length
  have hN : Spec.listEntries (.Subscribe p) = p.filters.length + N := rfl
  have hl : Est p.lenC (p.filters.length + N) (p.filters.length + N)
      (-(p.filters.length + N : Nat)) :=
    (est_bind (est_ticks _) fun _ => est_bind (est_optTicks _ _) fun _ => est_pure _).mono
      (by omega) (by omega) (by omega)
  rw [hN]
  have ho := est_optProps (n := fun q => q.user_properties.length) (by decide)
    SubscribeProperties.est_writeC p.properties
  exact (est_bind (est_lift (grows_u8 _)) fun _ => est_bind hl fun _ => est_bind (est_rem _) fun _ =>
    est_bind (est_lift (grows_u16 _)) fun _ => est_bind ho fun _ => est_bind (est_writeAll _) fun _ =>
    est_pure _).mono (by omega) (by omega) (by omega)

theorem Unsubscribe.est_writeC (p : Unsubscribe) :
    Est p.writeC (Spec.listEntries (.Unsubscribe p)) (7 * Spec.listEntries (.Unsubscribe p) + 12) 0 := by
  let N := p.properties.elim 0 fun q => q.user_properties.length
  have hN : Spec.listEntries (.Unsubscribe p) = p.filters.length + N := rfl
  have hl : Est p.lenC (p.filters.length + N) (p.filters.length + N)
      (-(p.filters.length + N : Nat)) :=
    (est_bind (est_ticks _) fun _ => est_bind (est_optTicks _ _) fun _ => est_pure _).mono
      (by omega) (by omega) (by omega)
  rw [hN]
  have ho := est_optProps (n := fun q => q.user_properties.length) (by decide)
    UnsubscribeProperties.est_writeC p.properties
  exact (est_bind (est_lift (grows_u8 _)) fun _ => est_bind hl fun _ => est_bind (est_rem _) fun _ =>
    est_bind (est_lift (grows_u16 _)) fun _ => est_bind ho fun _ => est_bind (est_writeFilters _) fun _ =>
    est_pure _).mono (by omega) (by omega) (by omega)

theorem SubAck.est_writeC (p : SubAck) :
    Est p.writeC (Spec.listEntries (.SubAck p)) (7 * Spec.listEntries (.SubAck p) + 12) 0 := by
  let N := p.properties.elim 0 fun q => q.user_properties.length
  have hN : Spec.listEntries (.SubAck p) = p.return_codes.length + N := rfl
  have hl : Est p.lenC N N (-(N : Nat)) :=
    (est_bind (est_optTicks _ _) fun _ => est_pure _).mono (by omega) (by omega) (by omega)
  rw [hN]
  have ho := est_optProps (n := fun q => q.user_properties.length) (by decide)
    SubAckProperties.est_writeC p.properties
  have hb : Grows (putBytes (p.return_codes.map SubscribeReasonCode.code)) p.return_codes.length := by
    have := grows_put (p.return_codes.map SubscribeReasonCode.code)
    rwa [List.length_map] at this
  exact (est_bind (est_lift (grows_u8 _)) fun _ => est_bind hl fun _ => est_bind (est_rem _) fun _ =>
    est_bind (est_lift (grows_u16 _)) fun _ => est_bind ho fun _ => est_bind (est_ticks _) fun _ =>
    est_bind (est_lift hb) fun _ => est_pure _).mono (by omega) (by omega) (by omega)

theorem UnsubAck.est_writeC (p : UnsubAck) :
    Est p.writeC (Spec.listEntries (.UnsubAck p)) (7 * Spec.listEntries (.UnsubAck p) + 12) 0 := by
  let N := p.properties.elim 0 fun q => q.user_properties.length
  have hN : Spec.listEntries (.UnsubAck p) = p.reasons.length + N := rfl
  have hl : Est p.lenC N N (-(N : Nat)) :=
    (est_bind (est_optTicks _ _) fun _ => est_pure _).mono (by omega) (by omega) (by omega)
  rw [hN]
  have ho := est_optProps (n := fun q => q.user_properties.length) (by decide)
    UnsubAckProperties.est_writeC p.properties
  have hb : Grows (putBytes (p.reasons.map UnsubAckReason.code)) p.reasons.length := by
    have := grows_put (p.reasons.map UnsubAckReason.code)
    rwa [List.length_map] at this
  exact (est_bind (est_lift (grows_u8 _)) fun _ => est_bind hl fun _ => est_bind (est_rem _) fun _ =>
    est_bind (est_lift (grows_u16 _)) fun _ => est_bind ho fun _ => est_bind (est_ticks _) fun _ =>
    est_bind (est_lift hb) fun _ => est_pure _).mono (by omega) (by omega) (by omega)

theorem Disconnect.est_writeC (p : Disconnect) :
    Est p.writeC (Spec.listEntries (.Disconnect p)) (7 * Spec.listEntries (.Disconnect p) + 12) 0 := by
  let N := p.properties.elim 0 fun q => q.user_properties.length
  have hN : Spec.listEntries (.Disconnect p) = N := rfl
  have hl : Est p.lenC N N (-(N : Nat)) :=
    (est_bind (est_optTicks _ _) fun _ => est_pure _).mono (by omega) (by omega) (by omega)
  rw [hN]
  have ho := est_optProps (n := fun q => q.user_properties.length) (by decide)
    DisconnectProperties.est_writeC p.properties
  have h2 : Disconnect.len p = 2 → N = 0 := by
    show Disconnect.len p = 2 → Option.elim p.properties 0 _ = 0
    unfold Disconnect.len
    cases p.properties with
    | none => intro _; rfl
    | some q =>
      simp only [reduceCtorEq, and_false, if_false, Option.elim_some]
      intro h
      have h1 : 1 ≤ len_len q.len := by unfold len_len; split <;> (try split) <;> (try split) <;> omega
      have h0 : userPropsLen q.user_properties = 0 := by
        have : q.len = 0 := by omega
        unfold DisconnectProperties.len at this
        omega
      cases hq : q.user_properties with
      | nil => rfl
      | cons x l =>
        have hge : ∀ (l : List (MqttString × MqttString)) n,
            n ≤ l.foldl (fun len kv => len + (1 + 2 + kv.1.length + 2 + kv.2.length)) n := by
          intro l
          induction l with
          | nil => intro n; exact Nat.le_refl _
          | cons y l ih => intro n; exact Nat.le_trans (Nat.le_add_right _ _) (ih _)
        rw [hq] at h0
        have := hge l (0 + (1 + 2 + x.1.length + 2 + x.2.length))
        have h0 : l.foldl (fun len kv => len + (1 + 2 + kv.1.length + 2 + kv.2.length))
          (0 + (1 + 2 + x.1.length + 2 + x.2.length)) = 0 := h0
        omega
  have hv : ∀ b a b', (p.lenC b).1 = (.ok a, b') → a = p.len := by
    intro b a b' h
    have : (p.lenC b).1 = (.ok p.len, b) := by
      unfold Disconnect.lenC
      cases p.properties <;> rfl
    rw [this] at h
    cases (Prod.mk.inj h).1
    rfl
  refine (est_bind (est_lift (grows_u8 _)) fun _ => est_bind_post hv hl fun a ha =>
    (?_ : Est _ 0 (2 * N + 8) N)).mono (by omega) (by omega) (by omega)
  split
  · have h0 := h2 (by omega)
    exact (est_bind (est_lift (grows_u8 _)) fun _ => est_pure _).mono
      (by omega) (by omega) (by omega)
  · exact (est_bind (est_rem _) fun _ => est_bind (est_lift (grows_u8 _)) fun _ =>
      est_bind ho fun _ => est_pure _).mono (by omega) (by omega) (by omega)

theorem Packet.est_writeC (p : Packet) :
    Est p.writeC (Spec.listEntries p) (7 * Spec.listEntries p + 12) 0 := by
  cases p with
  | ConnAck p => exact ConnAck.est_writeC p
  | Publish p => exact Publish.est_writeC p
  | PubAck p => exact PubAck.est_writeC p
  | PubRec p => exact PubRec.est_writeC p
  | PubRel p => exact PubRel.est_writeC p
  | PubComp p => exact PubComp.est_writeC p
  | Subscribe p => exact Subscribe.est_writeC p
  | SubAck p => exact SubAck.est_writeC p
  | Unsubscribe p => exact Unsubscribe.est_writeC p
  | UnsubAck p => exact UnsubAck.est_writeC p
  | Disconnect p => exact Disconnect.est_writeC p
  | Connect c w l => exact Connect.est_writeC c w l
  | PingReq => exact (est_lift (d := 0) fun b a b' h => by
      cases (Prod.mk.inj h).2
      rw [List.length_append]
      omega).mono (Nat.le_refl _) (Nat.zero_le _) (by decide)
  | PingResp => exact (est_lift (d := 0) fun b a b' h => by
      cases (Prod.mk.inj h).2
      rw [List.length_append]
      omega).mono (Nat.le_refl _) (Nat.zero_le _) (by decide)

end Mqtt
