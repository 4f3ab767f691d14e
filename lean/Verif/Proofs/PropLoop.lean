import Verif.Proofs.Prim
import Verif.Spec.Grammar
/-
A packet-independent property reader `gRead`, proved correct once; the thirteen readers of the
model are `Option.map ofList <$> gRead` (file `PropSets.lean` in this directory).
-/
set_option linter.unusedSimpArgs false

namespace Mqtt

open Spec

/-- Value of one property and the amount added to the cursor. -/
def readVal (mode : StrMode) : PropertyType → M (Property × Nat)
  | .PayloadFormatIndicator => do let v ← read_u8; pure (.payloadFormatIndicator v, 1)
  | .MessageExpiryInterval => do let v ← read_u32; pure (.messageExpiryInterval v, 4)
  | .ContentType => do let v ← read_mqtt_string mode; pure (.contentType v, 2 + v.length)
  | .ResponseTopic => do let v ← read_mqtt_string mode; pure (.responseTopic v, 2 + v.length)
  | .CorrelationData => do let v ← read_mqtt_bytes; pure (.correlationData v, 2 + v.length)
  | .SubscriptionIdentifier => do
    let x ← lengthM
    advance x.1
    pure (.subscriptionIdentifier x.2, 1 + x.1)
  | .SessionExpiryInterval => do let v ← read_u32; pure (.sessionExpiryInterval v, 4)
  | .AssignedClientIdentifier => do
    let v ← read_mqtt_string mode; pure (.assignedClientIdentifier v, 2 + v.length)
  | .ServerKeepAlive => do let v ← read_u16; pure (.serverKeepAlive v, 2)
  | .AuthenticationMethod => do
    let v ← read_mqtt_string mode; pure (.authenticationMethod v, 2 + v.length)
  | .AuthenticationData => do let v ← read_mqtt_bytes; pure (.authenticationData v, 2 + v.length)
  | .RequestProblemInformation => do let v ← read_u8; pure (.requestProblemInformation v, 1)
  | .WillDelayInterval => do let v ← read_u32; pure (.willDelayInterval v, 4)
  | .RequestResponseInformation => do let v ← read_u8; pure (.requestResponseInformation v, 1)
  | .ResponseInformation => do
    let v ← read_mqtt_string mode; pure (.responseInformation v, 2 + v.length)
  | .ServerReference => do let v ← read_mqtt_string mode; pure (.serverReference v, 2 + v.length)
  | .ReasonString => do let v ← read_mqtt_string mode; pure (.reasonString v, 2 + v.length)
  | .ReceiveMaximum => do let v ← read_u16; pure (.receiveMaximum v, 2)
  | .TopicAliasMaximum => do let v ← read_u16; pure (.topicAliasMaximum v, 2)
  | .TopicAlias => do let v ← read_u16; pure (.topicAlias v, 2)
  | .MaximumQos => do let v ← read_u8; pure (.maximumQos v, 1)
  | .RetainAvailable => do let v ← read_u8; pure (.retainAvailable v, 1)
  | .UserProperty => do
    let k ← read_mqtt_string mode
    let v ← read_mqtt_string mode
    pure (.userProperty k v, 2 + k.length + 2 + v.length)
  | .MaximumPacketSize => do let v ← read_u32; pure (.maximumPacketSize v, 4)
  | .WildcardSubscriptionAvailable => do
    let v ← read_u8; pure (.wildcardSubscriptionAvailable v, 1)
  | .SubscriptionIdentifierAvailable => do
    let v ← read_u8; pure (.subscriptionIdentifierAvailable v, 1)
  | .SharedSubscriptionAvailable => do let v ← read_u8; pure (.sharedSubscriptionAvailable v, 1)

/-- The property loop, collecting a list. -/
def gLoop (mode : StrMode) (ids : List UInt8) (plen : Nat) :
    (fuel cursor : Nat) → List Property → M (List Property)
  | 0, _, _ => fun b => (.diverge, b)
  | fuel + 1, c, l =>
    if c < plen then do
      let prop ← read_u8
      let ty ← liftOut (property prop)
      if ty.toU8 ∈ ids then do
        let x ← readVal mode ty
        gLoop mode ids plen fuel (c + 1 + x.2) (l ++ [x.1])
      else throwE (.InvalidPropertyType prop)
    else pure l

/-- The property section, as a list. -/
def gRead (mode : StrMode) (ids : List UInt8) : M (Option (List Property)) := do
  let x ← lengthM
  advance x.1
  if x.2 = 0 then pure none
  else do
    let bytes ← getBuf
    let l ← gLoop mode ids x.2 (bytes.length + 1) 0 []
    pure (some l)

/-- What a packet's `match` must satisfy. -/
def StepSpec {σ : Type} (step : UInt8 → PropertyType → σ → Nat → M (σ × Nat)) (mode : StrMode)
    (ofList : List Property → σ) (ids : List UInt8) : Prop :=
  ∀ prop ty l c, step prop ty (ofList l) c =
    if ty.toU8 ∈ ids then
      readVal mode ty >>= fun x => pure (ofList (l ++ [x.1]), c + x.2)
    else throwE (.InvalidPropertyType prop)

variable {σ : Type} {step : UInt8 → PropertyType → σ → Nat → M (σ × Nat)} {mode : StrMode}
  {ofList : List Property → σ} {ids : List UInt8}

theorem propLoop_eq (hs : StepSpec step mode ofList ids) (plen fuel c : Nat) (l : List Property) :
    propLoop step plen fuel c (ofList l) =
      gLoop mode ids plen fuel c l >>= fun l => pure (ofList l) := by
  induction fuel generalizing c l with
  | zero => rfl
  | succ fuel ih =>
    rw [propLoop, gLoop]
    split
    · simp only [bind_assoc]
      congr 1; funext prop
      congr 1; funext ty
      rw [hs]
      split
      · simp only [bind_assoc, pure_bind]
        congr 1; funext x
        rw [ih, Nat.add_assoc]
      · rfl
    · rfl

theorem readProps_eq (hs : StepSpec step mode ofList ids) {init : σ} (hi : init = ofList []) :
    readProps step init = gRead mode ids >>= fun o => pure (o.map ofList) := by
  subst hi
  unfold readProps gRead
  simp only [bind_assoc]
  congr 1; funext x
  obtain ⟨a, n⟩ := x
  congr 1; funext _
  split
  · rfl
  · simp only [bind_assoc, propLoop_eq hs, pure_bind]; rfl

/-! ### Property identifiers -/

theorem property_toU8 (ty : PropertyType) : property ty.toU8 = .ok ty := by cases ty <;> rfl

theorem property_spec :
    ∀ x : UInt8, (∃ ty, property x = .ok ty ∧ ty.toU8 = x) ∨
      property x = .err (.InvalidPropertyType x) := by
  have key : ∀ n : Fin 256, (match property (UInt8.ofNat n.val) with
      | .ok ty => decide (ty.toU8 = UInt8.ofNat n.val)
      | .err e => decide (e = .InvalidPropertyType (UInt8.ofNat n.val))
      | _ => false) = true := by decide +kernel
  intro x
  have := key ⟨x.toNat, u8_lt x⟩
  simp only [UInt8.ofNat_toNat] at this
  cases h : property x <;> simp_all

theorem property_ok {x : UInt8} {ty : PropertyType} (h : property x = .ok ty) : x = ty.toU8 := by
  rcases property_spec x with ⟨ty', h', rfl⟩ | h'
  · rw [h'] at h; cases h; rfl
  · rw [h'] at h; cases h

/-! ### One property -/

theorem advance_eq_ok {n : Nat} {b r : Bytes} :
    advance n b = (.ok (), r) ↔ n ≤ b.length ∧ r = b.drop n := by
  unfold advance
  split
  · simp_all [eq_comm]
  · simp; omega

/-- Exact behaviour of `readVal` when it succeeds. -/
theorem readVal_ok {ty : PropertyType} {b r : Bytes} {p : Property} {k : Nat} :
    readVal mode ty b = (.ok (p, k), r) ↔
      p.id = ty.toU8 ∧ p.TextsOk mode ∧
      ∃ v, b = v ++ r ∧ PropRep p (p.id :: v) ∧ k = v.length + p.drift := by
  constructor
  · intro h
    cases ty
    case SubscriptionIdentifier =>
      simp only [readVal, M.bind_eq_ok, M.pure_apply, Prod.mk.injEq, Out.ok.injEq] at h
      obtain ⟨x, b1, h1, _, b2, h2, ⟨rfl, rfl⟩, rfl⟩ := h
      simp only [lengthM, Prod.mk.injEq] at h1
      obtain ⟨h1, rfl⟩ := h1
      obtain ⟨w, r', rfl, hw, hk⟩ := length_ok h1
      rw [hk, advance_append] at h2
      simp only [Prod.mk.injEq, true_and] at h2
      subst h2
      refine ⟨rfl, by simp [Property.TextsOk, Property.texts], w, rfl, ⟨hw.le, w, hw, rfl⟩, ?_⟩
      simp [Property.drift, hk]; omega
    case UserProperty =>
      simp only [readVal, M.bind_eq_ok, M.pure_apply, Prod.mk.injEq, Out.ok.injEq,
        read_mqtt_string_ok] at h
      obtain ⟨k, b1, ⟨rfl, hk, hkt⟩, v, b2, ⟨rfl, hv, hvt⟩, ⟨rfl, rfl⟩, rfl⟩ := h
      refine ⟨rfl, by simp [Property.TextsOk, Property.texts, *], str k ++ str v, by simp,
        ⟨⟨hk, hv⟩, rfl⟩, by simp [Property.drift]; omega⟩
    all_goals
      simp only [readVal, M.bind_eq_ok, M.pure_apply, Prod.mk.injEq, Out.ok.injEq,
        read_mqtt_string_ok, read_mqtt_bytes_ok, read_u8_ok, read_u16_ok, read_u32_ok] at h
    all_goals
      first
      | obtain ⟨v, b1, rfl, ⟨rfl, rfl⟩, rfl⟩ := h
        exact ⟨rfl, by simp [Property.TextsOk, Property.texts],
          Property.value _, by simp [Property.value]; try rfl, ⟨trivial, rfl⟩,
          by simp [Property.value, Property.drift]⟩
      | obtain ⟨v, b1, ⟨rfl, hv, ht⟩, ⟨rfl, rfl⟩, rfl⟩ := h
        exact ⟨rfl, by simp [Property.TextsOk, Property.texts, ht],
          str v, rfl, ⟨hv, rfl⟩, by simp [Property.drift]⟩
      | obtain ⟨v, b1, ⟨rfl, hv⟩, ⟨rfl, rfl⟩, rfl⟩ := h
        exact ⟨rfl, by simp [Property.TextsOk, Property.texts],
          str v, rfl, ⟨hv, rfl⟩, by simp [Property.drift]⟩
  · rintro ⟨hid, ht, v, rfl, ⟨hf, hr⟩, rfl⟩
    cases ty <;> cases p <;>
      first
      | (exfalso; revert hid; simp only [Property.id, PropertyType.toU8]; decide)
      | skip
    case SubscriptionIdentifier.subscriptionIdentifier n =>
      obtain ⟨w, hw, h⟩ := hr
      simp only [Property.id, List.cons.injEq, true_and] at h
      subst h
      rw [readVal, lengthM_bind_rep hw, M.bind_ok (advance_append v r)]
      simp [Property.drift, Nat.add_comm]
    case UserProperty.userProperty k w =>
      simp only [Property.enc, Property.id, Property.value, List.cons.injEq, true_and] at hr
      subst hr
      simp only [Property.TextsOk, Property.texts, List.mem_cons, List.not_mem_nil, or_false,
        forall_eq_or_imp, forall_eq] at ht
      rw [readVal, List.append_assoc, (parses_string hf.1 ht.1).bind_apply,
        (parses_string hf.2 ht.2).bind_apply]
      simp [Property.drift]; omega
    all_goals
      simp only [Property.enc, Property.id, Property.value, List.cons.injEq, true_and] at hr
      subst hr
      simp only [Property.TextsOk, Property.texts, List.mem_cons, List.not_mem_nil, or_false,
        forall_eq] at ht
      rw [readVal]
      first
      | (rw [(parses_u8 _).bind_apply]; rfl)
      | (rw [(parses_u16 _).bind_apply]; rfl)
      | (rw [(parses_u32 _).bind_apply]; rfl)
      | (rw [(parses_string hf ht).bind_apply]; simp [Property.drift])
      | (rw [(parses_bytes hf).bind_apply]; simp [Property.drift])

theorem Good.advance_length : Good (Mqtt.lengthM >>= fun x => advance x.1 >>= fun _ => Pure.pure x) := by
  intro b
  rcases varint_trichotomy b with ⟨w, m, r, rfl, hw⟩ | ⟨h1, h2⟩ | ⟨w, r, rfl, h1, h2⟩
  · rw [lengthM_bind_rep hw, M.bind_ok (advance_append w r)]
    exact ⟨by simp, by simp, List.suffix_append _ _⟩
  · rw [M.bind_apply, Mqtt.lengthM, length_short h1 h2]; simp
  · rw [M.bind_apply, Mqtt.lengthM, length_long r h1 h2]; simp

/-- `lengthM` and `advance` together. -/
theorem Good.varint {α : Type} {f : Nat × Nat → M α} (hf : ∀ x, Good (f x)) :
    Good (Mqtt.lengthM >>= fun x => advance x.1 >>= fun _ => f x) := by
  have := Good.bind (f := f) Good.advance_length hf
  simpa only [bind_assoc, pure_bind] using this

theorem Good.readVal (ty : PropertyType) : Good (readVal mode ty) := by
  cases ty
  case SubscriptionIdentifier => exact Good.varint (fun x => Good.pure _)
  case UserProperty =>
    exact Good.bind (Good.read_mqtt_string _) fun _ =>
      Good.bind (Good.read_mqtt_string _) fun _ => Good.pure _
  all_goals
    first
    | exact Good.bind Good.read_u8 fun _ => Good.pure _
    | exact Good.bind Good.read_u16 fun _ => Good.pure _
    | exact Good.bind Good.read_u32 fun _ => Good.pure _
    | exact Good.bind (Good.read_mqtt_string _) fun _ => Good.pure _
    | exact Good.bind Good.read_mqtt_bytes fun _ => Good.pure _

/-! ### The loop -/

theorem Good.gLoop (plen : Nat) : ∀ (fuel c : Nat) (l : List Property) (b : Bytes),
    b.length < fuel →
    (gLoop mode ids plen fuel c l b).1 ≠ .panic ∧ (gLoop mode ids plen fuel c l b).1 ≠ .diverge ∧
      (gLoop mode ids plen fuel c l b).2 <:+ b := by
  intro fuel
  induction fuel with
  | zero => intro c l b h; omega
  | succ fuel ih =>
    intro c l b h
    rw [Mqtt.gLoop]
    by_cases hc : c < plen
    · rw [if_pos hc]
      cases b with
      | nil => rw [M.bind_err read_u8_nil]; simp
      | cons x b =>
        rw [M.bind_ok (read_u8_cons x b)]
        have hb : b.length < fuel := by simpa using h
        rcases property_spec x with ⟨ty, h1, h2⟩ | h1
        · rw [h1, liftOut_ok, pure_bind]
          by_cases ha : ty.toU8 ∈ ids
          · rw [if_pos ha]
            obtain ⟨g1, g2, g3⟩ := Good.readVal (mode := mode) ty b
            rw [M.bind_apply]
            rcases hv : Mqtt.readVal mode ty b with ⟨o, b'⟩
            rw [hv] at g1 g2 g3
            cases o with
            | ok y =>
              have := ih (c + 1 + y.2) (l ++ [y.1]) b' (by
                have : b'.length ≤ b.length := g3.length_le; omega)
              exact ⟨this.1, this.2.1, this.2.2.trans (g3.trans (List.suffix_cons _ _))⟩
            | err e => exact ⟨by simp, by simp, g3.trans (List.suffix_cons _ _)⟩
            | panic => simp at g1
            | diverge => simp at g2
          · rw [if_neg ha]; simp
        · rw [h1, liftOut_err, throwE_bind]; simp
    · rw [if_neg hc]; simp

theorem Good.gRead : Good (gRead mode ids) := by
  refine Good.varint fun x => ?_
  refine Good.ite (Good.pure _) ?_
  intro b
  have := Good.bind (m := (fun b => Mqtt.gLoop mode ids x.2 (b.length + 1) 0 [] b))
    (f := fun l => (Pure.pure (some l) : M _))
    (fun b => Good.gLoop x.2 (b.length + 1) 0 [] b (by omega)) (fun _ => Good.pure _) b
  exact this

/-- The loop over a run that ends below the announced length, then something else. -/
theorem gLoop_prefix {plen c c' : Nat} {ps : List Property} {ws : Bytes}
    (h : Run plen c ps ws c') (hok : ∀ p ∈ ps, p.Ok mode ids) (fuel : Nat) (l : List Property)
    (r : Bytes) :
    gLoop mode ids plen (ps.length + fuel) c l (ws ++ r) =
      gLoop mode ids plen fuel c' (l ++ ps) r := by
  induction h generalizing l with
  | nil c => simp
  | @cons c c' p w ps ws hc hp _ ih =>
    have hpo := hok p (by simp)
    have hid : w = p.id :: w.tail := by
      obtain ⟨_, hp⟩ := hp
      cases p <;> simp only [Property.enc] at hp <;> first | (rw [hp]; rfl) | skip
      obtain ⟨v, _, rfl⟩ := hp; rfl
    have hty : ∃ ty : PropertyType, p.id = ty.toU8 := by
      cases p
      case payloadFormatIndicator => exact ⟨.PayloadFormatIndicator, rfl⟩
      case messageExpiryInterval => exact ⟨.MessageExpiryInterval, rfl⟩
      case contentType => exact ⟨.ContentType, rfl⟩
      case responseTopic => exact ⟨.ResponseTopic, rfl⟩
      case correlationData => exact ⟨.CorrelationData, rfl⟩
      case subscriptionIdentifier => exact ⟨.SubscriptionIdentifier, rfl⟩
      case sessionExpiryInterval => exact ⟨.SessionExpiryInterval, rfl⟩
      case assignedClientIdentifier => exact ⟨.AssignedClientIdentifier, rfl⟩
      case serverKeepAlive => exact ⟨.ServerKeepAlive, rfl⟩
      case authenticationMethod => exact ⟨.AuthenticationMethod, rfl⟩
      case authenticationData => exact ⟨.AuthenticationData, rfl⟩
      case requestProblemInformation => exact ⟨.RequestProblemInformation, rfl⟩
      case willDelayInterval => exact ⟨.WillDelayInterval, rfl⟩
      case requestResponseInformation => exact ⟨.RequestResponseInformation, rfl⟩
      case responseInformation => exact ⟨.ResponseInformation, rfl⟩
      case serverReference => exact ⟨.ServerReference, rfl⟩
      case reasonString => exact ⟨.ReasonString, rfl⟩
      case receiveMaximum => exact ⟨.ReceiveMaximum, rfl⟩
      case topicAliasMaximum => exact ⟨.TopicAliasMaximum, rfl⟩
      case topicAlias => exact ⟨.TopicAlias, rfl⟩
      case maximumQos => exact ⟨.MaximumQos, rfl⟩
      case retainAvailable => exact ⟨.RetainAvailable, rfl⟩
      case userProperty => exact ⟨.UserProperty, rfl⟩
      case maximumPacketSize => exact ⟨.MaximumPacketSize, rfl⟩
      case wildcardSubscriptionAvailable => exact ⟨.WildcardSubscriptionAvailable, rfl⟩
      case subscriptionIdentifierAvailable => exact ⟨.SubscriptionIdentifierAvailable, rfl⟩
      case sharedSubscriptionAvailable => exact ⟨.SharedSubscriptionAvailable, rfl⟩
    obtain ⟨ty, hty⟩ := hty
    have hv : readVal mode ty (w.tail ++ (ws ++ r)) =
        (.ok (p, w.tail.length + p.drift), ws ++ r) :=
      readVal_ok.2 ⟨hty, hpo.2, w.tail, rfl, hid ▸ hp, rfl⟩
    have hl : w.length = 1 + w.tail.length := by
      conv => lhs; rw [hid]
      simp [Nat.add_comm]
    rw [show (p :: ps).length + fuel = (ps.length + fuel) + 1 by simp; omega, gLoop, if_pos hc]
    conv => lhs; rw [hid]
    rw [List.append_assoc, List.cons_append, M.bind_ok (read_u8_cons _ _), hty, property_toU8,
      liftOut_ok, pure_bind, if_pos (hty ▸ hpo.1), M.bind_ok hv]
    have := ih (fun q hq => hok q (by simp [hq])) (l ++ [p])
    rw [hl] at this
    simp only [List.append_assoc, List.singleton_append] at this ⊢
    rw [← this]
    congr 1; omega

theorem propRep_pos {p : Property} {w : Bytes} (h : PropRep p w) : 2 ≤ w.length := by
  obtain ⟨hf, h⟩ := h
  cases p <;> simp only [Property.enc, Property.value] at h <;>
    first
    | (rw [h]; simp; done)
    | (rw [h]; simp; omega)
    | skip
  obtain ⟨v, hv, rfl⟩ := h
  have := hv.length_pos
  simp; omega

theorem run_length {plen c c' : Nat} {ps : List Property} {ws : Bytes}
    (h : Run plen c ps ws c') : ps.length ≤ ws.length := by
  induction h with
  | nil => simp
  | cons _ hp _ ih => have := propRep_pos hp; simp; omega

/-- Soundness of the loop. -/
theorem gLoop_ok {plen : Nat} : ∀ {fuel c : Nat} {l l' : List Property} {b r : Bytes},
    gLoop mode ids plen fuel c l b = (.ok l', r) →
    ∃ ps ws c', l' = l ++ ps ∧ b = ws ++ r ∧ Run plen c ps ws c' ∧ plen ≤ c' ∧
      ∀ p ∈ ps, p.Ok mode ids := by
  intro fuel
  induction fuel with
  | zero => intro c l l' b r h; simp [gLoop] at h
  | succ fuel ih =>
    intro c l l' b r h
    rw [gLoop] at h
    by_cases hc : c < plen
    · rw [if_pos hc, M.bind_eq_ok] at h
      obtain ⟨x, b1, h1, h⟩ := h
      rw [read_u8_ok] at h1
      subst h1
      rcases property_spec x with ⟨ty, h1, h2⟩ | h1
      · rw [h1, liftOut_ok, pure_bind] at h
        by_cases ha : ty.toU8 ∈ ids
        · rw [if_pos ha, M.bind_eq_ok] at h
          obtain ⟨⟨p, k⟩, b2, hv, h⟩ := h
          obtain ⟨hid, ht, v, rfl, hrep, rfl⟩ := readVal_ok.1 hv
          obtain ⟨ps, ws, c', rfl, rfl, hrun, hle, hok⟩ := ih h
          refine ⟨p :: ps, (p.id :: v) ++ ws, c', by simp, by simp [hid, h2],
            Run.cons hc hrep ?_, hle, ?_⟩
          · simp only [List.length_cons]
            rw [show c + (v.length + 1) + p.drift = c + 1 + (v.length + p.drift) by omega]
            exact hrun
          · intro q hq
            rcases List.mem_cons.1 hq with rfl | hq
            · exact ⟨hid ▸ ha, ht⟩
            · exact hok q hq
        · rw [if_neg ha] at h; simp at h
      · rw [h1, liftOut_err, throwE_bind] at h; simp at h
    · rw [if_neg hc] at h
      simp only [M.pure_apply, Prod.mk.injEq, Out.ok.injEq] at h
      exact ⟨[], [], c, by simp [h.1], by simp [h.2], Run.nil c, by omega, by simp⟩

/-- Exact behaviour of the section reader when it succeeds. -/
theorem gRead_ok {b r : Bytes} {o : Option (List Property)} :
    gRead mode ids b = (.ok o, r) ↔
      (o = none ∧ ∃ v, VarintRep v 0 ∧ b = v ++ r) ∨
      (∃ ps v plen ws c', o = some ps ∧ VarintRep v plen ∧ 0 < plen ∧ b = v ++ (ws ++ r) ∧
        Run plen 0 ps ws c' ∧ plen ≤ c' ∧ ∀ p ∈ ps, p.Ok mode ids) := by
  constructor
  · intro h
    rw [gRead, M.bind_eq_ok] at h
    obtain ⟨⟨k, n⟩, b1, h1, h⟩ := h
    simp only [lengthM, Prod.mk.injEq] at h1
    obtain ⟨h1, rfl⟩ := h1
    obtain ⟨w, r', rfl, hw, rfl⟩ := length_ok h1
    rw [M.bind_ok (advance_append w r')] at h
    by_cases hn : n = 0
    · subst hn
      simp only [if_true, M.pure_apply, Prod.mk.injEq, Out.ok.injEq] at h
      exact .inl ⟨h.1.symm, w, hw, by rw [h.2]⟩
    · simp only [hn, if_false, getBuf_bind] at h
      rw [M.bind_eq_ok] at h
      obtain ⟨l, b2, h2, h3⟩ := h
      simp only [M.pure_apply, Prod.mk.injEq, Out.ok.injEq] at h3
      obtain ⟨rfl, rfl⟩ := h3
      obtain ⟨ps, ws, c', rfl, rfl, hrun, hle, hok⟩ := gLoop_ok h2
      exact .inr ⟨_, w, n, ws, c', by simp, hw, by omega, rfl, hrun, hle, hok⟩
  · rintro (⟨rfl, v, hv, rfl⟩ | ⟨ps, v, plen, ws, c', rfl, hv, hpos, rfl, hrun, hle, hok⟩)
    · rw [gRead, lengthM_bind_rep hv, M.bind_ok (advance_append v r)]; rfl
    · rw [gRead, lengthM_bind_rep hv, M.bind_ok (advance_append v _), if_neg (by simp; omega),
        getBuf_bind]
      have hl := run_length hrun
      have := gLoop_prefix hrun hok ((ws ++ r).length + 1 - ps.length) [] r
      rw [show ps.length + ((ws ++ r).length + 1 - ps.length) = (ws ++ r).length + 1 by
        simp; omega] at this
      rw [M.bind_apply, this]
      rw [show (ws ++ r).length + 1 - ps.length = ((ws ++ r).length - ps.length) + 1 by
        simp; omega, gLoop, if_neg (by omega)]
      rfl

end Mqtt
