import Verif.Proofs.Pieces
import Verif.Proofs.Once
import Verif.Proofs.Inject
/-
What is written for values within the rules of MQTT 5 conforms to MQTT 5.
-/
namespace Mqtt

open Spec

theorem normProps_of {α : Type} {toList : α → List Property} {ofList : List Property → α}
    (hinv : ∀ a, ofList (toList a) = a) (o : Option α) :
    normProps toList o = propsOf ofList (optList toList o) := by
  cases o with
  | none => simp [normProps, optList, propsOf]
  | some a => by_cases h : toList a = [] <;> simp [normProps, optList, propsOf, h, hinv]

theorem section5_opt {α : Type} {toList : α → List Property} {ids many : List UInt8}
    (o : Option α) (hids : ∀ a, ∀ p ∈ toList a, p.id ∈ ids)
    (honce : ∀ a k, k ∉ many → countId k (toList a) ≤ 1)
    (hv : ∀ p ∈ optList toList o, p.Value5) {n : Nat}
    (hl : (optSection toList o).length ≤ n) (hn : n ≤ maxVarint) :
    Section5 ids many (optList toList o) (optSection toList o) := by
  rw [optSection_eq] at hl ⊢
  refine ⟨rfl, ?_, ?_, hv, ?_⟩
  · simp only [propSection, List.length_append] at hl; omega
  · cases o with
    | none => simp [optList]
    | some a => exact hids a
  · cases o with
    | none => simp [optList]
    | some a => exact honce a

theorem filters_are (fs : List Filter) :
    ∃ items, fs.flatMap filterBytes = filterItems items ∧ FiltersAre items fs ∧
      ∀ i ∈ items, i.2.toNat < 64 ∧ ∃ f ∈ fs, i.1 = f.path := by
  induction fs with
  | nil => exact ⟨[], rfl, .nil, by simp⟩
  | cons f fs ih =>
    obtain ⟨items, h1, h2, h3⟩ := ih
    have hlt : filterOptions f < 64 := filterOptions_lt f
    have ho : (UInt8.ofNat (filterOptions f)).toNat = filterOptions f := ofNat_small (by omega)
    refine ⟨(f.path, UInt8.ofNat (filterOptions f)) :: items, ?_, .cons rfl ?_ h2, ?_⟩
    · rw [List.flatMap_cons, h1]; rfl
    · unfold OptionsAre bitAt
      rw [ho]
      obtain ⟨path, q, nl, pr, rr⟩ := f
      cases q <;> cases nl <;> cases pr <;> cases rr <;> simp [filterOptions, qosNum, bit]
    · intro i hi
      rcases List.mem_cons.1 hi with rfl | hi
      · exact ⟨by rw [ho]; exact hlt, f, by simp, rfl⟩
      · obtain ⟨h4, g, hg, h5⟩ := h3 i hi
        exact ⟨h4, g, by simp [hg], h5⟩

theorem connectFlags_bits (c : Connect) (will : Option LastWill) (login : Option Login) :
    ∃ fl : UInt8, fl = UInt8.ofNat (connectFlags c will login) ∧ fl.toNat % 2 = 0 ∧
      bitAt fl 1 = c.clean_start ∧
      (will = none → fl.toNat / 4 % 16 = 0) ∧
      (∀ w, will = some w → fl.toNat / 4 % 2 = 1 ∧ qosNum w.qos = fl.toNat / 8 % 4 ∧
        bitAt fl 5 = w.retain) ∧
      bitAt fl 7 = (login.elim false fun l => !l.username.isEmpty) ∧
      bitAt fl 6 = (login.elim false fun l => !l.password.isEmpty) := by
  refine ⟨_, rfl, ?_⟩
  have hlt : connectFlags c will login < 256 := by
    unfold connectFlags
    have := bit_lt c.clean_start
    cases will with
    | none =>
      cases login with
      | none => simp only; omega
      | some l =>
        have := bit_lt (!l.password.isEmpty); have := bit_lt (!l.username.isEmpty)
        simp only; omega
    | some w =>
      have := qosNum_lt w.qos; have := bit_lt w.retain
      cases login with
      | none => simp only; omega
      | some l =>
        have := bit_lt (!l.password.isEmpty); have := bit_lt (!l.username.isEmpty)
        simp only; omega
  unfold bitAt
  rw [ofNat_small hlt]
  unfold connectFlags
  cases hcs : c.clean_start <;> cases will with
  | none =>
    cases login with
    | none => simp [bit]
    | some l =>
      obtain ⟨u, p⟩ := l
      cases u <;> cases p <;> simp [bit]
  | some w =>
    obtain ⟨t, m, q, r, ps⟩ := w
    cases login with
    | none => cases q <;> cases r <;> simp [bit, qosNum]
    | some l =>
      obtain ⟨u, p⟩ := l
      cases u <;> cases p <;> cases q <;> cases r <;> simp [bit, qosNum]

theorem login5_written {login : Option Login} {fl : UInt8}
    (b7 : bitAt fl 7 = (login.elim false fun l => !l.username.isEmpty))
    (b6 : bitAt fl 6 = (login.elim false fun l => !l.password.isEmpty))
    (hu : ∀ l, login = some l → Text5 l.username)
    (hp : ∀ l, login = some l → l.password.length ≤ 65535) :
    ∃ u q, Login5 fl u q ∧
      (login.filter fun l => !(l.username.isEmpty && l.password.isEmpty)) = connectLogin fl u q ∧
      login.elim [] loginBytes =
        (if bitAt fl 7 then str u else []) ++ (if bitAt fl 6 then str q else []) := by
  unfold Login5 connectLogin
  cases login with
  | none => exact ⟨[], [], by simp [b7, b6]⟩
  | some l =>
    refine ⟨l.username, l.password, ⟨fun _ => hu l rfl, fun _ => hp l rfl⟩, ?_, ?_⟩ <;>
      rw [b7, b6] <;> obtain ⟨u, q⟩ := l
    · cases u <;> cases q <;> simp [Option.filter]
    · cases u <;> cases q <;> simp [loginBytes, optStr]

theorem body_connect (c : Connect) (will : Option LastWill) (login : Option Login) :
    body (.Connect c will login) =
      str [0x4D, 0x51, 0x54, 0x54] ++ [0x05] ++ [UInt8.ofNat (connectFlags c will login)]
      ++ u16 c.keep_alive ++ optSection Spec.ConnectProperties.toList c.properties
      ++ str c.client_id ++ will.elim [] willBytes ++ login.elim [] loginBytes := by
  cases will <;> cases login <;> rfl

theorem ackTail_cases {α : Type} (code : UInt8) (toList : α → List Property) (o : Option α) :
    (ackTail code toList o = [] ∧ code = 0 ∧ o = none) ∨
    ackTail code toList o = [code] ++ optSection toList o := by
  cases o with
  | none =>
    by_cases h : code = 0
    · exact .inl ⟨by simp [ackTail, h], h, rfl⟩
    · exact .inr (by simp [ackTail, h, optSection])
  | some p => exact .inr rfl

/-- The properties of a packet, without those of the will. -/
def mainProps : Packet → List Property
  | .Connect c _ _ => optList Spec.ConnectProperties.toList c.properties
  | p => props p

theorem auth5_written {o : Option ConnectProperties}
    (h : ∀ ps, o = some ps → ps.authentication_method = none → ps.authentication_data = none) :
    Auth5 (optList Spec.ConnectProperties.toList o) := by
  intro d hd
  cases o with
  | none => simp [optList] at hd
  | some c =>
    have hc := h c rfl
    simp only [optList, Spec.ConnectProperties.toList, one, users, List.mem_append, List.mem_map,
      Option.mem_toList, reduceCtorEq, and_false, exists_false, or_false, false_or,
      Property.authenticationData.injEq, exists_eq_right] at hd
    cases hm : c.authentication_method with
    | none => rw [hc hm] at hd; cases hd
    | some m => exact ⟨m, by simp [optList, Spec.ConnectProperties.toList, one, hm]⟩

theorem auth5_values {ps : List Property} (h : Auth5 ps) :
    ∀ c, propsOf Spec.ConnectProperties.ofList ps = some c → c.authentication_method = none →
      c.authentication_data = none := by
  intro c hc hm
  unfold propsOf at hc
  split at hc
  · cases hc
  simp only [Option.some.injEq] at hc
  subst hc
  simp only [Spec.ConnectProperties.ofList] at hm ⊢
  cases hd : last Property.authenticationData? ps with
  | none => rfl
  | some d =>
    obtain ⟨q, hq, hs⟩ := List.mem_filterMap.1 (List.mem_of_getLast? hd)
    cases q <;> simp only [Property.authenticationData?, reduceCtorEq] at hs
    obtain ⟨m, hm'⟩ := h _ hq
    obtain ⟨v, hv⟩ := last_some (sel := Property.authenticationMethod?) hm' rfl
    rw [hv] at hm; cases hm

theorem payload5_written {m : Mqtt.Bytes} {o : Option PublishProperties}
    (h : ∀ ps, o = some ps → ps.payload_format_indicator = some 1 → IsUtf8 m) :
    Payload5 m (optList Spec.PublishProperties.toList o) := by
  intro hd
  cases o with
  | none => simp [optList] at hd
  | some c =>
    refine h c rfl ?_
    simpa [optList, Spec.PublishProperties.toList, one, users] using hd

theorem will5_written {m : Mqtt.Bytes} {o : Option LastWillProperties}
    (h : ∀ ps, o = some ps → ps.payload_format_indicator = some 1 → IsUtf8 m) :
    Payload5 m (optList Spec.LastWillProperties.toList o) := by
  intro hd
  cases o with
  | none => simp [optList] at hd
  | some c =>
    refine h c rfl ?_
    simpa [optList, Spec.LastWillProperties.toList, one, users] using hd

theorem format_mem {ps : List Property}
    (h : last Property.payloadFormatIndicator? ps = some 1) : .payloadFormatIndicator 1 ∈ ps := by
  obtain ⟨q, hq, hs⟩ := List.mem_filterMap.1 (List.mem_of_getLast? h)
  cases q <;> simp only [Property.payloadFormatIndicator?, reduceCtorEq, Option.some.injEq] at hs
  subst hs; exact hq

theorem payload5_values {m : Mqtt.Bytes} {ps : List Property} (h : Payload5 m ps) :
    ∀ c, propsOf Spec.PublishProperties.ofList ps = some c →
      c.payload_format_indicator = some 1 → IsUtf8 m := by
  intro c hc hm
  unfold propsOf at hc
  split at hc
  · cases hc
  simp only [Option.some.injEq] at hc
  subst hc
  exact h (format_mem hm)

theorem will5_values {m : Mqtt.Bytes} {ps : List Property} (h : Payload5 m ps) :
    ∀ c, propsOf Spec.LastWillProperties.ofList ps = some c →
      c.payload_format_indicator = some 1 → IsUtf8 m := by
  intro c hc hm
  unfold propsOf at hc
  split at hc
  · cases hc
  simp only [Option.some.injEq] at hc
  subst hc
  exact h (format_mem hm)

theorem target5_written {s : Bytes} {o : Option PublishProperties}
    (h : Name5 s ∨ s = [] ∧ ∃ ps, o = some ps ∧ ps.topic_alias ≠ none) :
    Target5 s (optList Spec.PublishProperties.toList o) := by
  rcases h with h | ⟨h, c, rfl, hc⟩
  · exact .inl h
  · refine .inr ⟨h, ?_⟩
    cases ha : c.topic_alias with
    | none => exact absurd ha hc
    | some a => exact ⟨a, by simp [optList, Spec.PublishProperties.toList, one, ha]⟩

theorem target5_values {s : Bytes} {ps : List Property} (h : Target5 s ps) :
    Name5 s ∨ s = [] ∧
      ∃ c, propsOf Spec.PublishProperties.ofList ps = some c ∧ c.topic_alias ≠ none := by
  rcases h with h | ⟨h, a, ha⟩
  · exact .inl h
  · obtain ⟨v, hv⟩ := last_some (sel := Property.topicAlias?) ha rfl
    refine .inr ⟨h, Spec.PublishProperties.ofList ps, ?_, ?_⟩
    · unfold propsOf
      rw [if_neg (by rintro rfl; cases ha)]
    · simp only [Spec.PublishProperties.ofList]
      rw [hv]; simp

theorem written_body5 {p : Packet} (he : Encodable p) (hv : Values5 p) (hs : Sound p) :
    ∃ flags, (Spec.byte1 p).toNat = 16 * typeNum p + flags ∧
      Body5 flags (body p) (norm p) (mainProps p) := by
  obtain ⟨hv, hv'⟩ := hv
  have hl := he.2.2.1
  cases p with
  | Connect c will login =>
    obtain ⟨fl, hfl, b0, b1, bn, bw, b7, b6⟩ := connectFlags_bits c will login
    obtain ⟨hcid, hwt, hlu, hau, hwp⟩ := hv'
    have hau' := auth5_written hau
    have hsec : Section5 Spec.ConnectProperties.allowed [0x26]
        (optList Spec.ConnectProperties.toList c.properties)
        (optSection Spec.ConnectProperties.toList c.properties) :=
      section5_opt _ ConnectProperties.toList_allowed ConnectProperties.once
        (fun q hq => hv q (by simp [props, hq])) (by
          simp only [body, List.length_append] at hl; exact Nat.le_refl _) (by
          simp only [body, List.length_append] at hl; omega)
    obtain ⟨u, q, l1, l2, l3⟩ := login5_written b7 b6 hlu
      (fun l hl' => he.1 _ (by subst hl'; simp [fields, texts]))
    refine ⟨0, rfl, ?_⟩
    simp only [norm, mainProps]
    rw [l2, normProps_of ConnectProperties.ofList_toList]
    cases will with
    | none =>
      have h2 : bitAt fl 2 = false := by have := bn rfl; simp [bitAt]; omega
      have := Body5.connect (keepAlive := c.keep_alive) b0 (bn rfl) hsec hau' hcid l1
      rw [b1] at this
      have e : body (.Connect c none login) = connectBody fl c.keep_alive
          (optSection Spec.ConnectProperties.toList c.properties) c.client_id [] [] [] u q [] := by
        rw [body_connect, l3, ← hfl]
        unfold connectBody
        simp [str, u16, h2]
      rw [e]
      exact this
    | some w =>
      obtain ⟨w1, w2, w3⟩ := bw w rfl
      have h2 : bitAt fl 2 = true := by simp [bitAt]; omega
      have hwsec : Section5 Spec.LastWillProperties.allowed [0x26]
          (optList Spec.LastWillProperties.toList w.properties)
          (optSection Spec.LastWillProperties.toList w.properties) :=
        section5_opt _ LastWillProperties.toList_allowed LastWillProperties.once
          (fun q hq => hv q (by simp [props, hq])) (Nat.le_refl _) (by
            simp only [body, willBytes, List.length_append] at hl; omega)
      have hmsg : w.message.length ≤ 65535 := he.1 _ (by simp [fields])
      have := Body5.connectWill (keepAlive := c.keep_alive) b0 w1 w2 hsec hau' hcid hwsec
        (hwt w rfl) hmsg l1 (will5_written fun ps => hwp w ps rfl)
      rw [b1, w3] at this
      have e : body (.Connect c (some w) login) = connectBody fl c.keep_alive
          (optSection Spec.ConnectProperties.toList c.properties) c.client_id
          (optSection Spec.LastWillProperties.toList w.properties) w.topic w.message u q [] := by
        rw [body_connect, l3, ← hfl]
        unfold connectBody
        simp [str, u16, h2, willBytes]
      rw [e, Option.map_some, normProps_of LastWillProperties.ofList_toList]
      exact this
  | ConnAck p =>
    have hsec : Section5 Spec.ConnAckProperties.allowed [0x26] _ _ :=
      section5_opt p.properties ConnAckProperties.toList_allowed ConnAckProperties.once hv
        (Nat.le_refl _) (by simp only [body, List.length_append] at hl; omega)
    refine ⟨0, rfl, ?_⟩
    simp only [norm, mainProps]
    rw [normProps_of ConnAckProperties.ofList_toList]
    obtain ⟨x, hx⟩ : ∃ x, connAckCode p.code = some x := by
      cases h : connAckCode p.code with
      | none => exact absurd h he.2.2.2
      | some x => exact ⟨x, rfl⟩
    have hsp : p.session_present = true → x = 0 := by
      intro h
      have h2 := hx
      rw [show p.code = .Success from hv' h] at h2
      simpa [connAckCode] using h2.symm
    have := Body5.connAck (present := p.session_present) hx hsp hsec
    have e : body (.ConnAck p) = [if p.session_present then 1 else 0, x] ++
        optSection Spec.ConnAckProperties.toList p.properties := by
      simp only [body, hx, Option.getD_some]
      cases p.session_present <;> rfl
    rw [e]; exact this
  | Publish p =>
    have hsec : Section5 Spec.PublishProperties.allowed [0x26, 0x0B] _ _ :=
      section5_opt p.properties PublishProperties.toList_allowed PublishProperties.once hv
        (Nat.le_refl _) (by simp only [body, List.length_append] at hl; omega)
    have hd := bit_lt p.dup; have hrt := bit_lt p.retain; have hq := qosNum_lt p.qos
    have hb1 : (Spec.byte1 (.Publish p)).toNat =
        16 * 3 + (8 * bit p.dup + 2 * qosNum p.qos + bit p.retain) := by
      rw [Spec.byte1, ofNat_small (by omega)]; omega
    refine ⟨_, hb1, ?_⟩
    simp only [norm, mainProps]
    rw [normProps_of PublishProperties.ofList_toList]
    have e1 : p.dup = decide ((8 * bit p.dup + 2 * qosNum p.qos + bit p.retain) / 8 = 1) :=
      (bit_eq_iff (by omega)).1 (by omega)
    have e2 : p.retain = decide ((8 * bit p.dup + 2 * qosNum p.qos + bit p.retain) % 2 = 1) :=
      (bit_eq_iff (by omega)).1 (by omega)
    have hdup : p.qos = .AtMostOnce → p.dup = false := hv'.2.1
    by_cases h0 : p.qos = .AtMostOnce
    · have := Body5.publish0 (flags := 8 * bit p.dup + 2 * qosNum p.qos + bit p.retain)
        (payload := p.payload) (by rw [h0, hdup h0]; cases p.retain <;> decide) (target5_written hv'.1) hsec
        (payload5_written hv'.2.2)
      have e3 : p.retain = decide (8 * bit p.dup + 2 * qosNum p.qos + bit p.retain = 1) := by
        rw [h0, hdup h0]; cases p.retain <;> rfl
      rw [← e3] at this
      have e : body (.Publish p) = str p.topic ++
          optSection Spec.PublishProperties.toList p.properties ++ p.payload := by
        simp [body, h0]
      rw [e]
      simp only [h0, hdup h0, if_true] at this ⊢
      exact this
    · have := Body5.publish (flags := 8 * bit p.dup + 2 * qosNum p.qos + bit p.retain)
        (payload := p.payload) (q := p.qos) (by omega) (by omega) h0 (he.2.2.2 h0)
        (target5_written hv'.1) hsec (payload5_written hv'.2.2)
      rw [← e1, ← e2] at this
      have e : body (.Publish p) = str p.topic ++ u16 p.pkid ++
          optSection Spec.PublishProperties.toList p.properties ++ p.payload := by
        simp [body, h0]
      rw [e]
      simp only [h0, if_false]
      exact this
  | PubAck p =>
    refine ⟨0, rfl, ?_⟩
    simp only [norm, mainProps, body]
    rw [normProps_of PubAckProperties.ofList_toList]
    rcases ackTail_cases (pubAckCode p.reason) Spec.PubAckProperties.toList p.properties with
      ⟨h1, h2, h3⟩ | h1
    · have h4 : p.reason = .Success := by
        cases hr : p.reason <;> rw [hr] at h2 <;> first | rfl | (exact absurd h2 (by decide))
      obtain ⟨pkid, reason, o⟩ := p
      simp only at h3 h4 hv'
      subst h3 h4
      rw [h1, List.append_nil]
      exact .pubAck2 hv'
    · have hsec : Section5 Spec.PubAckProperties.allowed [0x26] _ _ :=
        section5_opt p.properties PubAckProperties.toList_allowed PubAckProperties.once hv
          (Nat.le_refl _) (by simp only [body, h1, List.length_append] at hl; omega)
      rw [h1, ← List.append_assoc]
      exact .pubAck hv' hsec
  | PubRec p =>
    refine ⟨0, rfl, ?_⟩
    simp only [norm, mainProps, body]
    rw [normProps_of PubRecProperties.ofList_toList]
    rcases ackTail_cases (pubRecCode p.reason) Spec.PubRecProperties.toList p.properties with
      ⟨h1, h2, h3⟩ | h1
    · have h4 : p.reason = .Success := by
        cases hr : p.reason <;> rw [hr] at h2 <;> first | rfl | (exact absurd h2 (by decide))
      obtain ⟨pkid, reason, o⟩ := p
      simp only at h3 h4 hv'
      subst h3 h4
      rw [h1, List.append_nil]
      exact .pubRec2 hv'
    · have hsec : Section5 Spec.PubRecProperties.allowed [0x26] _ _ :=
        section5_opt p.properties PubRecProperties.toList_allowed PubRecProperties.once hv
          (Nat.le_refl _) (by simp only [body, h1, List.length_append] at hl; omega)
      rw [h1, ← List.append_assoc]
      exact .pubRec hv' hsec
  | PubRel p =>
    refine ⟨2, rfl, ?_⟩
    simp only [norm, mainProps, body]
    rw [normProps_of PubRelProperties.ofList_toList]
    rcases ackTail_cases (pubRelCode p.reason) Spec.PubRelProperties.toList p.properties with
      ⟨h1, h2, h3⟩ | h1
    · have h4 : p.reason = .Success := by
        cases hr : p.reason <;> rw [hr] at h2 <;> first | rfl | (exact absurd h2 (by decide))
      obtain ⟨pkid, reason, o⟩ := p
      simp only at h3 h4 hv'
      subst h3 h4
      rw [h1, List.append_nil]
      exact .pubRel2 hv'
    · have hsec : Section5 Spec.PubRelProperties.allowed [0x26] _ _ :=
        section5_opt p.properties PubRelProperties.toList_allowed PubRelProperties.once hv
          (Nat.le_refl _) (by simp only [body, h1, List.length_append] at hl; omega)
      rw [h1, ← List.append_assoc]
      exact .pubRel hv' hsec
  | PubComp p =>
    refine ⟨0, rfl, ?_⟩
    simp only [norm, mainProps, body]
    rw [normProps_of PubCompProperties.ofList_toList]
    rcases ackTail_cases (pubCompCode p.reason) Spec.PubCompProperties.toList p.properties with
      ⟨h1, h2, h3⟩ | h1
    · have h4 : p.reason = .Success := by
        cases hr : p.reason <;> rw [hr] at h2 <;> first | rfl | (exact absurd h2 (by decide))
      obtain ⟨pkid, reason, o⟩ := p
      simp only at h3 h4 hv'
      subst h3 h4
      rw [h1, List.append_nil]
      exact .pubComp2 hv'
    · have hsec : Section5 Spec.PubCompProperties.allowed [0x26] _ _ :=
        section5_opt p.properties PubCompProperties.toList_allowed PubCompProperties.once hv
          (Nat.le_refl _) (by simp only [body, h1, List.length_append] at hl; omega)
      rw [h1, ← List.append_assoc]
      exact .pubComp hv' hsec
  | Subscribe p =>
    have hsec : Section5 Spec.SubscribeProperties.allowed [0x26] _ _ :=
      section5_opt p.properties SubscribeProperties.toList_allowed SubscribeProperties.once hv
        (Nat.le_refl _) (by simp only [body, List.length_append] at hl; omega)
    refine ⟨2, rfl, ?_⟩
    obtain ⟨items, h1, h2, h3⟩ := filters_are p.filters
    simp only [norm, mainProps, body]
    rw [normProps_of SubscribeProperties.ofList_toList, h1]
    refine .subscribe hv'.1 hsec ?_ h2 ?_ hv'.2.2.2
    · rintro rfl
      cases hf : p.filters with
      | nil => exact hv'.2.1 hf
      | cons a l => rw [hf] at h2; cases h2
    · intro i hi
      obtain ⟨h4, f, hf, h5⟩ := h3 i hi
      exact ⟨h5 ▸ hv'.2.2.1 f hf, h4⟩
  | SubAck p =>
    have hsec : Section5 Spec.SubAckProperties.allowed [0x26] _ _ :=
      section5_opt p.properties SubAckProperties.toList_allowed SubAckProperties.once hv
        (Nat.le_refl _) (by simp only [body, List.length_append] at hl; omega)
    refine ⟨0, rfl, ?_⟩
    simp only [norm, mainProps, body]
    rw [normProps_of SubAckProperties.ofList_toList]
    exact .subAck hv'.1 hsec hv'.2
  | Unsubscribe p =>
    have hsec : Section5 Spec.UnsubscribeProperties.allowed [0x26] _ _ :=
      section5_opt p.properties UnsubscribeProperties.toList_allowed UnsubscribeProperties.once hv
        (Nat.le_refl _) (by simp only [body, List.length_append] at hl; omega)
    refine ⟨2, rfl, ?_⟩
    simp only [norm, mainProps, body]
    rw [normProps_of UnsubscribeProperties.ofList_toList]
    exact .unsubscribe hv'.1 hsec hv'.2.1 hv'.2.2
  | UnsubAck p =>
    have hsec : Section5 Spec.UnsubAckProperties.allowed [0x26] _ _ :=
      section5_opt p.properties UnsubAckProperties.toList_allowed UnsubAckProperties.once hv
        (Nat.le_refl _) (by simp only [body, List.length_append] at hl; omega)
    refine ⟨0, rfl, ?_⟩
    simp only [norm, mainProps, body]
    rw [normProps_of UnsubAckProperties.ofList_toList]
    exact .unsubAck hv'.1 hsec hv'.2
  | PingReq => exact ⟨0, rfl, .pingReq⟩
  | PingResp => exact ⟨0, rfl, .pingResp⟩
  | Disconnect p =>
    refine ⟨0, rfl, ?_⟩
    simp only [norm, mainProps, body]
    obtain ⟨rc, o⟩ := p
    cases o with
    | none =>
      have h : rc = .NormalDisconnection := hs
      subst h
      exact .disconnect0
    | some q =>
      have hsec : Section5 Spec.DisconnectProperties.allowed [0x26] _ _ :=
        section5_opt (some q) DisconnectProperties.toList_allowed DisconnectProperties.once hv
          (Nat.le_refl _) (by
            simp only [body, ackTail, List.length_cons] at hl
            simp only [optSection]; omega)
      rw [normProps_of DisconnectProperties.ofList_toList]
      exact .disconnect hsec

end Mqtt
