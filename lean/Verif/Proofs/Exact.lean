import Verif.Proofs.Main
/-
When exactly PUBLISH and DISCONNECT survive a round trip.
-/
namespace Mqtt

open Spec

variable {mode : StrMode}

theorem id_property (p : Property) : ∃ ty : PropertyType, p.id = ty.toU8 := by
  cases p <;> first
    | exact ⟨.PayloadFormatIndicator, rfl⟩ | exact ⟨.MessageExpiryInterval, rfl⟩
    | exact ⟨.ContentType, rfl⟩ | exact ⟨.ResponseTopic, rfl⟩
    | exact ⟨.CorrelationData, rfl⟩ | exact ⟨.SubscriptionIdentifier, rfl⟩
    | exact ⟨.SessionExpiryInterval, rfl⟩ | exact ⟨.AssignedClientIdentifier, rfl⟩
    | exact ⟨.ServerKeepAlive, rfl⟩ | exact ⟨.AuthenticationMethod, rfl⟩
    | exact ⟨.AuthenticationData, rfl⟩ | exact ⟨.RequestProblemInformation, rfl⟩
    | exact ⟨.WillDelayInterval, rfl⟩ | exact ⟨.RequestResponseInformation, rfl⟩
    | exact ⟨.ResponseInformation, rfl⟩ | exact ⟨.ServerReference, rfl⟩
    | exact ⟨.ReasonString, rfl⟩ | exact ⟨.ReceiveMaximum, rfl⟩
    | exact ⟨.TopicAliasMaximum, rfl⟩ | exact ⟨.TopicAlias, rfl⟩
    | exact ⟨.MaximumQos, rfl⟩ | exact ⟨.RetainAvailable, rfl⟩
    | exact ⟨.UserProperty, rfl⟩ | exact ⟨.MaximumPacketSize, rfl⟩
    | exact ⟨.WildcardSubscriptionAvailable, rfl⟩
    | exact ⟨.SubscriptionIdentifierAvailable, rfl⟩
    | exact ⟨.SharedSubscriptionAvailable, rfl⟩

theorem propRep_cons {p : Property} {w : Bytes} (h : PropRep p w) : ∃ v, w = p.id :: v := by
  obtain ⟨hf, h⟩ := h
  cases p <;> first | exact ⟨_, h⟩ | (obtain ⟨v, -, rfl⟩ := h; exact ⟨v, rfl⟩)

/-- A stream starts with at most one property. -/
theorem propRep_unique {p p' : Property} {w w' r r' : Bytes} (h : PropRep p w)
    (h' : PropRep p' w') (he : w ++ r = w' ++ r') : p = p' ∧ w = w' ∧ r = r' := by
  obtain ⟨v, rfl⟩ := propRep_cons h
  obtain ⟨v', rfl⟩ := propRep_cons h'
  simp only [List.cons_append, List.cons.injEq] at he
  obtain ⟨hid, he⟩ := he
  obtain ⟨ty, hty⟩ := id_property p
  have h1 := readVal_ok (mode := .binary) (ty := ty) (b := v ++ r) (r := r) (p := p)
    (k := v.length + p.drift) |>.2 ⟨hty, (by intro _ _ h; cases h), v, rfl, h, rfl⟩
  have h2 := readVal_ok (mode := .binary) (ty := ty) (b := v' ++ r') (r := r') (p := p')
    (k := v'.length + p'.drift) |>.2 ⟨hid ▸ hty, (by intro _ _ h; cases h), v', rfl, h', rfl⟩
  rw [he, h2] at h1
  simp only [Prod.mk.injEq, Out.ok.injEq] at h1
  obtain ⟨⟨hp, -⟩, hr⟩ := h1
  refine ⟨hp.symm, ?_, hr.symm⟩
  subst hr
  rw [List.append_cancel_right he, hid]

theorem run_unique {plen c c' : Nat} {ps ps' : List Property} {ws : Bytes}
    (h : Run plen c ps' ws c') (hw : ws = encProps ps) (hf : ∀ p ∈ ps, p.Fits) : ps' = ps := by
  induction h generalizing ps with
  | nil =>
    cases ps with
    | nil => rfl
    | cons p ps =>
      have := enc_pos (hf p (by simp))
      rw [encProps_cons] at hw
      have := congrArg List.length hw
      simp at this; omega
  | cons _ hp _ ih =>
    cases ps with
    | nil =>
      have := propRep_pos hp
      have := congrArg List.length hw
      simp only [encProps, List.flatMap_nil, List.length_append, List.length_nil] at this
      omega
    | cons p ps =>
      rw [encProps_cons] at hw
      obtain ⟨rfl, -, hr⟩ := propRep_unique hp (propRep_enc (hf p (by simp))) hw
      rw [ih hr (fun q hq => hf q (by simp [hq]))]

theorem run_drift {plen c c' : Nat} {ps : List Property} {ws : Bytes}
    (h : Run plen c ps ws c') (hw : ws = encProps ps) (hf : ∀ p ∈ ps, p.Fits) :
    ∀ pre p post, ps = pre ++ p :: post → c + (encProps pre).length + subIds pre < plen := by
  induction h with
  | nil => intro pre p post h; simp at h
  | @cons c c' q w ps ws hlt hp _ ih =>
    intro pre p post he
    rw [encProps_cons] at hw
    obtain ⟨-, rfl, hr⟩ := propRep_unique hp (propRep_enc (hf q (by simp))) hw
    cases pre with
    | nil => simpa [encProps, subIds, all] using hlt
    | cons p' pre =>
      simp only [List.cons_append, List.cons.injEq] at he
      obtain ⟨rfl, he⟩ := he
      have := ih hr (fun q hq => hf q (by simp [hq])) pre p post he
      rw [encProps_cons, subIds_cons]
      simp only [List.length_append]
      omega

theorem driftSafe_of_run {c' : Nat} {ps : List Property}
    (h : Run (encProps ps).length 0 ps (encProps ps) c') (hf : ∀ p ∈ ps, p.Fits) :
    DriftSafe ps := by
  intro pre p post he
  have := run_drift h rfl hf pre p post he
  rw [he, encProps_append] at this
  simp only [List.length_append] at this
  omega

/-- If a PUBLISH comes back, the miscount did no harm. -/
theorem publish_driftSafe {p : Publish} (he : Encodable (.Publish p)) {max : Option Nat}
    {r : Bytes}
    (h : Packet.read mode max (encode (.Publish p) ++ r) = (.ok (norm (.Publish p)), r)) :
    DriftSafe (optList PublishProperties.toList p.properties) := by
  cases hq : p.properties with
  | none => intro pre x post h; simp [optList] at h
  | some q =>
    have hf : ∀ x ∈ Spec.PublishProperties.toList q, x.Fits := fun x hx =>
      he.2.1 x (by simp [props, hq, optList, hx])
    show DriftSafe (Spec.PublishProperties.toList q)
    by_cases hl : Spec.PublishProperties.toList q = []
    · rw [hl]; intro pre x post h; simp at h
    obtain ⟨b1, v, bd, hb, hv, -, -, hrep⟩ := read_ok_iff.1 h
    have hb' : byte1 (.Publish p) :: (varint (body (.Publish p)).length ++
        (body (.Publish p) ++ r)) = b1 :: (v ++ (bd ++ r)) := by
      rw [← hb]; simp [encode, frame]
    simp only [List.cons.injEq] at hb'
    obtain ⟨-, -, hbd⟩ := varintRep_unique (encode_body_rep _ he) hv hb'.2
    replace hbd := List.append_cancel_right hbd
    obtain ⟨-, -, -, -, -, ps, s, hbody, hsec, -⟩ := hrep
    rw [← hbd] at hbody
    simp only [body] at hbody
    have hpk : (if p.qos = .AtMostOnce then ([] : Bytes)
        else u16 (if p.qos = .AtMostOnce then 0 else p.pkid)) =
        if p.qos = .AtMostOnce then [] else u16 p.pkid := by split <;> rfl
    rw [hpk] at hbody
    replace hbody := List.append_cancel_right hbody
    replace hbody := List.append_cancel_left hbody
    simp only [hq, optSection, propSection] at hbody
    have hlen : (encProps (Spec.PublishProperties.toList q)).length ≤ 268435455 := by
      have := he.2.2.1
      simp only [body, hq, optSection, propSection, List.length_append, maxVarint] at this
      omega
    cases hsec with
    | @absent v hv0 =>
      have h2 : varint (encProps (Spec.PublishProperties.toList q)).length ++
        encProps (Spec.PublishProperties.toList q) = s ++ [] := by simpa using hbody
      obtain ⟨-, -, h4⟩ := varintRep_unique (varint_rep hlen) hv0 h2
      cases hx : Spec.PublishProperties.toList q with
      | nil => exact absurd hx hl
      | cons x xs =>
        have := enc_pos (hf x (by rw [hx]; simp))
        rw [hx, encProps_cons] at h4
        have := congrArg List.length h4
        simp only [List.length_append, List.length_nil] at this; omega
    | @present v plen ps ws c hv0 h0 hrun hc hok =>
      obtain ⟨-, rfl, rfl⟩ := varintRep_unique (varint_rep hlen) hv0 hbody
      have := run_unique hrun rfl hf
      rw [this] at hrun
      exact driftSafe_of_run hrun hf

/-! ### DISCONNECT -/

theorem read_disconnect_one (rc : DisconnectReasonCode) {max : Option Nat} (hm : Admits max 1)
    (r : Bytes) :
    Packet.read mode max ([0xE0, 0x01, disconnectCode rc] ++ r) =
      (.err (.InsufficientBytes 1), r) := by
  have hv : VarintRep [0x01] 1 := ⟨[], 1, rfl, by simp, by simp, by decide, rfl⟩
  have := read_frame (mode := mode) (b1 := 0xE0) (v := [0x01]) (body := [disconnectCode rc])
    (max := max) hv (not_overLimit.2 hm) r
  refine Eq.trans this ?_
  congr 1
  cases rc <;> cases mode <;> rfl

theorem read_disconnect_nil {max : Option Nat} (r : Bytes) :
    Packet.read mode max ([0xE0, 0x00] ++ r) =
      (.ok (.Disconnect { reason_code := .NormalDisconnection, properties := none }), r) := by
  have hv : VarintRep [0x00] 0 := ⟨[], 0, rfl, by simp, by simp, by decide, rfl⟩
  exact read_ok_iff.2 ⟨0xE0, [0x00], [], rfl, hv, by rintro ⟨m, -, h⟩; simp at h, by decide,
    by decide, .inl ⟨rfl, rfl, rfl⟩⟩


theorem disconnectCode_zero {rc : DisconnectReasonCode} (h : disconnectCode rc = 0) :
    rc = .NormalDisconnection := by
  cases rc <;> first | rfl | exact absurd h (by decide)

theorem subIds_publish (q : PublishProperties) :
    subIds (Spec.PublishProperties.toList q) = q.subscription_identifiers.length := by
  have h1 : ∀ {α : Type} (mk : α → Property) (o : Option α), (∀ a, (mk a).drift = 0) →
      subIds (one mk o) = 0 := by
    intro α mk o h
    cases o with
    | none => rfl
    | some a => show subIds [mk a] = 0; rw [subIds_cons, h]; rfl
  have h2 : ∀ l, subIds (users l) = 0 := by
    intro l
    induction l with
    | nil => rfl
    | cons a l ih => exact (subIds_cons _ _).trans (by rw [show (Property.userProperty a.1 a.2).drift = 0 from rfl, Nat.zero_add]; exact ih)
  have h3 : ∀ l : List Nat, subIds (l.map .subscriptionIdentifier) = l.length := by
    intro l
    induction l with
    | nil => rfl
    | cons a l ih =>
      refine (subIds_cons _ _).trans ?_
      rw [ih]; simp [Property.drift]; omega
  unfold Spec.PublishProperties.toList
  simp only [subIds_append, h2, h3]
  rw [h1 .payloadFormatIndicator _ (fun _ => rfl), h1 .messageExpiryInterval _ (fun _ => rfl),
    h1 .topicAlias _ (fun _ => rfl), h1 .responseTopic _ (fun _ => rfl),
    h1 .correlationData _ (fun _ => rfl), h1 .contentType _ (fun _ => rfl)]
  omega

end Mqtt
