import Verif.Props.Codes
/-
C24: property sections in any order.
-/
namespace Props

open Mqtt Spec

theorem all_filter {α : Type} {sel : Property → Option α} {k : UInt8}
    (h : ∀ p, sel p ≠ none → p.id = k) (l : List Property) :
    all sel (l.filter (·.id = k)) = all sel l := by
  unfold all
  induction l with
  | nil => rfl
  | cons p l ih =>
    by_cases hp : p.id = k
    · rw [List.filter_cons_of_pos (by simp [hp]), List.filterMap_cons, List.filterMap_cons, ih]
    · have : sel p = none := by
        exact Classical.byContradiction fun hn => hp (h p hn)
      rw [List.filter_cons_of_neg (by simp [hp]), List.filterMap_cons, this, ih]

theorem all_same {α : Type} {sel : Property → Option α} {ps qs : List Property} (k : UInt8)
    (h : ∀ p, sel p ≠ none → p.id = k) (hs : SameByKind ps qs) : all sel ps = all sel qs := by
  rw [← all_filter h ps, hs k, all_filter h qs]

theorem last_same {α : Type} {sel : Property → Option α} {ps qs : List Property} (k : UInt8)
    (h : ∀ p, sel p ≠ none → p.id = k) (hs : SameByKind ps qs) : last sel ps = last sel qs :=
  congrArg List.getLast? (all_same k h hs)

/-- For the examples: small lengths. -/
theorem varintRep_small (n : Nat) (h : n < 128) : VarintRep [UInt8.ofNat n] n := by
  have := varint_rep (n := n) (by omega)
  rwa [varint, if_pos h] at this

/-- For the examples: a frame of at most 127 bytes. -/
theorem frameOf_small {b1 : UInt8} {body f : Bytes} (h : body.length < 128)
    (hf : f = b1 :: UInt8.ofNat body.length :: body) : FrameOf b1 body f :=
  ⟨_, hf, varintRep_small _ h⟩

/-- For the examples: the section as the library writes it. -/
theorem sectionRep_enc {s : Bytes} (ps : List Property) (h : ∀ p ∈ ps, p.Fits)
    (hl : (encProps ps).length ≤ maxVarint) (hs : s = propSection ps) : SectionRep ps s :=
  ⟨_, _, hs, varint_rep hl, seqRep_enc h⟩

/-- C24, what `last` and `all` mean: `last` is the value of the last property of the kind, `all`
collects the values one after the other. -/
theorem C24_last_all {α : Type} (sel : Property → Option α) :
    (∀ ps, (∀ p ∈ ps, sel p = none) → last sel ps = none ∧ all sel ps = []) ∧
    (∀ ps p qs v, sel p = some v → (∀ q ∈ qs, sel q = none) →
      last sel (ps ++ p :: qs) = some v ∧ all sel (ps ++ p :: qs) = all sel ps ++ [v]) := by
  constructor
  · intro ps h
    have : ps.filterMap sel = [] := by simpa using h
    exact ⟨by simp [last, this], this⟩
  · intro ps p qs v hp h
    have : qs.filterMap sel = [] := by simpa using h
    constructor
    · simp [last, List.filterMap_append, hp, this]
    · simp [all, List.filterMap_append, hp, this]

/-- C24, order: exchanging properties of different kinds changes nothing, for each of the 13
property records. -/
theorem C24_order (ps qs : List Property) (h : SameByKind ps qs) :
    Spec.ConnectProperties.ofList ps = Spec.ConnectProperties.ofList qs ∧
    Spec.LastWillProperties.ofList ps = Spec.LastWillProperties.ofList qs ∧
    Spec.ConnAckProperties.ofList ps = Spec.ConnAckProperties.ofList qs ∧
    Spec.PublishProperties.ofList ps = Spec.PublishProperties.ofList qs ∧
    Spec.PubAckProperties.ofList ps = Spec.PubAckProperties.ofList qs ∧
    Spec.PubRecProperties.ofList ps = Spec.PubRecProperties.ofList qs ∧
    Spec.PubRelProperties.ofList ps = Spec.PubRelProperties.ofList qs ∧
    Spec.PubCompProperties.ofList ps = Spec.PubCompProperties.ofList qs ∧
    Spec.SubscribeProperties.ofList ps = Spec.SubscribeProperties.ofList qs ∧
    Spec.SubAckProperties.ofList ps = Spec.SubAckProperties.ofList qs ∧
    Spec.UnsubscribeProperties.ofList ps = Spec.UnsubscribeProperties.ofList qs ∧
    Spec.UnsubAckProperties.ofList ps = Spec.UnsubAckProperties.ofList qs ∧
    Spec.DisconnectProperties.ofList ps = Spec.DisconnectProperties.ofList qs := by
  refine ⟨?_, ?_, ?_, ?_, ?_, ?_, ?_, ?_, ?_, ?_, ?_, ?_, ?_⟩
  · unfold Spec.ConnectProperties.ofList
    rw [last_same (sel := Property.sessionExpiryInterval?) 0x11 (by intro p; cases p <;> simp [Property.sessionExpiryInterval?, Property.id]) h,
      last_same (sel := Property.receiveMaximum?) 0x21 (by intro p; cases p <;> simp [Property.receiveMaximum?, Property.id]) h,
      last_same (sel := Property.maximumPacketSize?) 0x27 (by intro p; cases p <;> simp [Property.maximumPacketSize?, Property.id]) h,
      last_same (sel := Property.topicAliasMaximum?) 0x22 (by intro p; cases p <;> simp [Property.topicAliasMaximum?, Property.id]) h,
      last_same (sel := Property.requestResponseInformation?) 0x19 (by intro p; cases p <;> simp [Property.requestResponseInformation?, Property.id]) h,
      last_same (sel := Property.requestProblemInformation?) 0x17 (by intro p; cases p <;> simp [Property.requestProblemInformation?, Property.id]) h,
      all_same (sel := Property.userProperty?) 0x26 (by intro p; cases p <;> simp [Property.userProperty?, Property.id]) h,
      last_same (sel := Property.authenticationMethod?) 0x15 (by intro p; cases p <;> simp [Property.authenticationMethod?, Property.id]) h,
      last_same (sel := Property.authenticationData?) 0x16 (by intro p; cases p <;> simp [Property.authenticationData?, Property.id]) h]
  · unfold Spec.LastWillProperties.ofList
    rw [last_same (sel := Property.willDelayInterval?) 0x18 (by intro p; cases p <;> simp [Property.willDelayInterval?, Property.id]) h,
      last_same (sel := Property.payloadFormatIndicator?) 0x01 (by intro p; cases p <;> simp [Property.payloadFormatIndicator?, Property.id]) h,
      last_same (sel := Property.messageExpiryInterval?) 0x02 (by intro p; cases p <;> simp [Property.messageExpiryInterval?, Property.id]) h,
      last_same (sel := Property.contentType?) 0x03 (by intro p; cases p <;> simp [Property.contentType?, Property.id]) h,
      last_same (sel := Property.responseTopic?) 0x08 (by intro p; cases p <;> simp [Property.responseTopic?, Property.id]) h,
      last_same (sel := Property.correlationData?) 0x09 (by intro p; cases p <;> simp [Property.correlationData?, Property.id]) h,
      all_same (sel := Property.userProperty?) 0x26 (by intro p; cases p <;> simp [Property.userProperty?, Property.id]) h]
  · unfold Spec.ConnAckProperties.ofList
    rw [last_same (sel := Property.sessionExpiryInterval?) 0x11 (by intro p; cases p <;> simp [Property.sessionExpiryInterval?, Property.id]) h,
      last_same (sel := Property.receiveMaximum?) 0x21 (by intro p; cases p <;> simp [Property.receiveMaximum?, Property.id]) h,
      last_same (sel := Property.maximumQos?) 0x24 (by intro p; cases p <;> simp [Property.maximumQos?, Property.id]) h,
      last_same (sel := Property.retainAvailable?) 0x25 (by intro p; cases p <;> simp [Property.retainAvailable?, Property.id]) h,
      last_same (sel := Property.maximumPacketSize?) 0x27 (by intro p; cases p <;> simp [Property.maximumPacketSize?, Property.id]) h,
      last_same (sel := Property.assignedClientIdentifier?) 0x12 (by intro p; cases p <;> simp [Property.assignedClientIdentifier?, Property.id]) h,
      last_same (sel := Property.topicAliasMaximum?) 0x22 (by intro p; cases p <;> simp [Property.topicAliasMaximum?, Property.id]) h,
      last_same (sel := Property.reasonString?) 0x1F (by intro p; cases p <;> simp [Property.reasonString?, Property.id]) h,
      all_same (sel := Property.userProperty?) 0x26 (by intro p; cases p <;> simp [Property.userProperty?, Property.id]) h,
      last_same (sel := Property.wildcardSubscriptionAvailable?) 0x28 (by intro p; cases p <;> simp [Property.wildcardSubscriptionAvailable?, Property.id]) h,
      last_same (sel := Property.subscriptionIdentifierAvailable?) 0x29 (by intro p; cases p <;> simp [Property.subscriptionIdentifierAvailable?, Property.id]) h,
      last_same (sel := Property.sharedSubscriptionAvailable?) 0x2A (by intro p; cases p <;> simp [Property.sharedSubscriptionAvailable?, Property.id]) h,
      last_same (sel := Property.serverKeepAlive?) 0x13 (by intro p; cases p <;> simp [Property.serverKeepAlive?, Property.id]) h,
      last_same (sel := Property.responseInformation?) 0x1A (by intro p; cases p <;> simp [Property.responseInformation?, Property.id]) h,
      last_same (sel := Property.serverReference?) 0x1C (by intro p; cases p <;> simp [Property.serverReference?, Property.id]) h,
      last_same (sel := Property.authenticationMethod?) 0x15 (by intro p; cases p <;> simp [Property.authenticationMethod?, Property.id]) h,
      last_same (sel := Property.authenticationData?) 0x16 (by intro p; cases p <;> simp [Property.authenticationData?, Property.id]) h]
  · unfold Spec.PublishProperties.ofList
    rw [last_same (sel := Property.payloadFormatIndicator?) 0x01 (by intro p; cases p <;> simp [Property.payloadFormatIndicator?, Property.id]) h,
      last_same (sel := Property.messageExpiryInterval?) 0x02 (by intro p; cases p <;> simp [Property.messageExpiryInterval?, Property.id]) h,
      last_same (sel := Property.topicAlias?) 0x23 (by intro p; cases p <;> simp [Property.topicAlias?, Property.id]) h,
      last_same (sel := Property.responseTopic?) 0x08 (by intro p; cases p <;> simp [Property.responseTopic?, Property.id]) h,
      last_same (sel := Property.correlationData?) 0x09 (by intro p; cases p <;> simp [Property.correlationData?, Property.id]) h,
      all_same (sel := Property.userProperty?) 0x26 (by intro p; cases p <;> simp [Property.userProperty?, Property.id]) h,
      all_same (sel := Property.subscriptionIdentifier?) 0x0B (by intro p; cases p <;> simp [Property.subscriptionIdentifier?, Property.id]) h,
      last_same (sel := Property.contentType?) 0x03 (by intro p; cases p <;> simp [Property.contentType?, Property.id]) h]
  · unfold Spec.PubAckProperties.ofList
    rw [last_same (sel := Property.reasonString?) 0x1F (by intro p; cases p <;> simp [Property.reasonString?, Property.id]) h,
      all_same (sel := Property.userProperty?) 0x26 (by intro p; cases p <;> simp [Property.userProperty?, Property.id]) h]
  · unfold Spec.PubRecProperties.ofList
    rw [last_same (sel := Property.reasonString?) 0x1F (by intro p; cases p <;> simp [Property.reasonString?, Property.id]) h,
      all_same (sel := Property.userProperty?) 0x26 (by intro p; cases p <;> simp [Property.userProperty?, Property.id]) h]
  · unfold Spec.PubRelProperties.ofList
    rw [last_same (sel := Property.reasonString?) 0x1F (by intro p; cases p <;> simp [Property.reasonString?, Property.id]) h,
      all_same (sel := Property.userProperty?) 0x26 (by intro p; cases p <;> simp [Property.userProperty?, Property.id]) h]
  · unfold Spec.PubCompProperties.ofList
    rw [last_same (sel := Property.reasonString?) 0x1F (by intro p; cases p <;> simp [Property.reasonString?, Property.id]) h,
      all_same (sel := Property.userProperty?) 0x26 (by intro p; cases p <;> simp [Property.userProperty?, Property.id]) h]
  · unfold Spec.SubscribeProperties.ofList
    rw [last_same (sel := Property.subscriptionIdentifier?) 0x0B (by intro p; cases p <;> simp [Property.subscriptionIdentifier?, Property.id]) h,
      all_same (sel := Property.userProperty?) 0x26 (by intro p; cases p <;> simp [Property.userProperty?, Property.id]) h]
  · unfold Spec.SubAckProperties.ofList
    rw [last_same (sel := Property.reasonString?) 0x1F (by intro p; cases p <;> simp [Property.reasonString?, Property.id]) h,
      all_same (sel := Property.userProperty?) 0x26 (by intro p; cases p <;> simp [Property.userProperty?, Property.id]) h]
  · unfold Spec.UnsubscribeProperties.ofList
    rw [all_same (sel := Property.userProperty?) 0x26 (by intro p; cases p <;> simp [Property.userProperty?, Property.id]) h]
  · unfold Spec.UnsubAckProperties.ofList
    rw [last_same (sel := Property.reasonString?) 0x1F (by intro p; cases p <;> simp [Property.reasonString?, Property.id]) h,
      all_same (sel := Property.userProperty?) 0x26 (by intro p; cases p <;> simp [Property.userProperty?, Property.id]) h]
  · unfold Spec.DisconnectProperties.ofList
    rw [last_same (sel := Property.sessionExpiryInterval?) 0x11 (by intro p; cases p <;> simp [Property.sessionExpiryInterval?, Property.id]) h,
      last_same (sel := Property.reasonString?) 0x1F (by intro p; cases p <;> simp [Property.reasonString?, Property.id]) h,
      all_same (sel := Property.userProperty?) 0x26 (by intro p; cases p <;> simp [Property.userProperty?, Property.id]) h,
      last_same (sel := Property.serverReference?) 0x1C (by intro p; cases p <;> simp [Property.serverReference?, Property.id]) h]

/-- The hypothesis on the section, for the frames of C24: a section of exact length, all of whose
properties are allowed and have well-formed texts. -/
def Sec (mode : StrMode) (ids : List UInt8) (ps : List Property) (s : Bytes) : Prop :=
  SectionRep ps s ∧ ∀ p ∈ ps, p.Ok mode ids

/-- C24, CONNECT. -/
theorem C24_connect (mode : StrMode) (max : Option Nat) (b1 flags : UInt8) (keepAlive : UInt16)
    (ps : List Property) (s clientId ww wl trail f r : Bytes) (will : Option LastWill)
    (login : Option Login)
    (hf : FrameOf b1 (str [0x4D, 0x51, 0x54, 0x54] ++ [0x05] ++ [flags] ++ u16 keepAlive ++ s
      ++ str clientId ++ ww ++ wl ++ trail) f) (ht : b1.toNat / 16 = 1)
    (hm : Admits max (str [0x4D, 0x51, 0x54, 0x54] ++ [0x05] ++ [flags] ++ u16 keepAlive ++ s
      ++ str clientId ++ ww ++ wl ++ trail).length)
    (hs : Sec mode Spec.ConnectProperties.allowed ps s) (hc : TextField mode clientId)
    (hw : WillRep mode flags.toNat will ww) (hl : LoginRep mode flags.toNat login wl) :
    Packet.read mode max (f ++ r) = (.ok (.Connect {
      keep_alive := keepAlive, client_id := clientId,
      clean_start := decide (flags.toNat / 2 % 2 = 1),
      properties := propsOf Spec.ConnectProperties.ofList ps } will login), r) := by
  refine frame_ok hf hm (show _ = typeNum (.Connect _ _ _) from ht) ?_ r
  refine ⟨flags, _, s, ww, wl, trail, rfl, ?_, propSec_of_section' (by decide) hs.1 hs.2,
    propsOf_map.symm, hc, hw, hl⟩
  unfold bit
  by_cases h : flags.toNat / 2 % 2 = 1 <;> simp [h] <;> omega

/-- C24, the will in a CONNECT: its section comes first, and yields the properties of the will. -/
theorem C24_will (mode : StrMode) (flags : UInt8) (qos : QoS) (ps : List Property)
    (s topic message : Bytes)
    (hs : Sec mode Spec.LastWillProperties.allowed ps s) (h : flags.toNat / 4 % 2 = 1)
    (hq : qosNum qos = flags.toNat / 8 % 4) (h1 : topic.length ≤ 65535)
    (h2 : message.length ≤ 65535) :
    WillRep mode flags.toNat (some {
      topic := topic, message := message, qos := qos,
      retain := decide (flags.toNat / 32 % 2 = 1),
      properties := propsOf Spec.LastWillProperties.ofList ps })
      (s ++ str topic ++ str message) := by
  refine ⟨h, hq, ?_, h1, h2, _, s, propSec_of_section' (by decide) hs.1 hs.2, propsOf_map.symm,
    rfl⟩
  unfold bit
  by_cases h : flags.toNat / 32 % 2 = 1 <;> simp [h] <;> omega

/-- C24, CONNACK. -/
theorem C24_connack (mode : StrMode) (max : Option Nat) (b1 flags x : UInt8) (s trail f r : Bytes)
    (ps : List Property) (rc : ConnectReturnCode) (hf : FrameOf b1 ([flags] ++ [x] ++ s ++ trail) f)
    (ht : b1.toNat / 16 = 2) (hm : Admits max ([flags] ++ [x] ++ s ++ trail).length)
    (hs : Sec mode Spec.ConnAckProperties.allowed ps s) (hx : connAckCode rc = some x) :
    Packet.read mode max (f ++ r) = (.ok (.ConnAck {
      session_present := decide (flags.toNat % 2 = 1), code := rc,
      properties := propsOf Spec.ConnAckProperties.ofList ps }), r) :=
  (C23_connack mode max b1 flags x s trail f r ps hf ht hm hs.1 hs.2).1 rc hx

/-- C24, PUBLISH, except sections in which the library's miscount of subscription identifiers
takes effect: `DriftSafe` excludes them. It holds whenever there is at most one subscription
identifier (`C24_driftSafe`). -/
theorem C24_publish_partial (mode : StrMode) (max : Option Nat) (b1 : UInt8) (qos : QoS)
    (pkid : UInt16) (ps : List Property) (topic s payload f r : Bytes)
    (hf : FrameOf b1 (str topic ++ (if qos = .AtMostOnce then [] else u16 pkid) ++ s ++ payload) f)
    (ht : b1.toNat / 16 = 3)
    (hm : Admits max
      (str topic ++ (if qos = .AtMostOnce then [] else u16 pkid) ++ s ++ payload).length)
    (hq : qosNum qos = b1.toNat / 2 % 4) (hp : pkid = 0 ↔ qos = .AtMostOnce)
    (hc : TextField mode topic) (hs : Sec mode Spec.PublishProperties.allowed ps s)
    (hd : DriftSafe ps) :
    Packet.read mode max (f ++ r) = (.ok (.Publish {
      dup := decide (b1.toNat / 8 % 2 = 1), qos := qos, retain := decide (b1.toNat % 2 = 1),
      topic := topic, pkid := pkid, payload := payload,
      properties := propsOf Spec.PublishProperties.ofList ps }), r) := by
  refine frame_ok hf hm (show _ = typeNum (.Publish _) from ht) ?_ r
  refine ⟨?_, hq, ?_, hp, hc, _, s, rfl, propSec_of_section hs.1 hs.2 hd, propsOf_map.symm⟩
  · unfold bit
    by_cases h : b1.toNat / 8 % 2 = 1 <;> simp [h] <;> omega
  · unfold bit
    by_cases h : b1.toNat % 2 = 1 <;> simp [h] <;> omega

/-- `DriftSafe` holds for sections with at most one subscription identifier, which is all that
MQTT 5 allows in a SUBSCRIBE. -/
theorem C24_driftSafe (ps : List Property) (s : Bytes) (hs : SectionRep ps s)
    (h : subIds ps ≤ 1) : DriftSafe ps := driftSafe_of_le_one (section_fits hs) h

/-- C24, SUBSCRIBE, with the same exception. -/
theorem C24_subscribe_partial (mode : StrMode) (max : Option Nat) (b1 : UInt8) (pkid : UInt16)
    (ps : List Property) (s w f r : Bytes) (filters : List Filter)
    (hf : FrameOf b1 (u16 pkid ++ s ++ w) f) (ht : b1.toNat / 16 = 8)
    (hm : Admits max (u16 pkid ++ s ++ w).length)
    (hs : Sec mode Spec.SubscribeProperties.allowed ps s) (hd : DriftSafe ps)
    (hn : filters ≠ []) (hw : SeqRep (FilterRep mode) filters w) :
    Packet.read mode max (f ++ r) = (.ok (.Subscribe {
      pkid := pkid, filters := filters,
      properties := propsOf Spec.SubscribeProperties.ofList ps }), r) :=
  frame_ok hf hm (show _ = typeNum (.Subscribe _) from ht)
    ⟨hn, _, s, w, rfl, propSec_of_section hs.1 hs.2 hd, propsOf_map.symm, hw⟩ r

/-- C24, SUBACK. -/
theorem C24_suback (mode : StrMode) (max : Option Nat) (b1 : UInt8) (pkid : UInt16)
    (ps : List Property) (s f r : Bytes) (codes : List SubscribeReasonCode)
    (hf : FrameOf b1 (u16 pkid ++ s ++ codes.map subAckCode) f) (ht : b1.toNat / 16 = 9)
    (hm : Admits max (u16 pkid ++ s ++ codes.map subAckCode).length)
    (hs : Sec mode Spec.SubAckProperties.allowed ps s) (hn : codes ≠ []) :
    Packet.read mode max (f ++ r) = (.ok (.SubAck {
      pkid := pkid, return_codes := codes,
      properties := propsOf Spec.SubAckProperties.ofList ps }), r) :=
  (C23_suback mode max b1 pkid s _ f r ps hf ht hm hs.1 hs.2).1 codes hn rfl

/-- C24, UNSUBSCRIBE. -/
theorem C24_unsubscribe (mode : StrMode) (max : Option Nat) (b1 : UInt8) (pkid : UInt16)
    (ps : List Property) (s w f r : Bytes) (filters : List Bytes)
    (hf : FrameOf b1 (u16 pkid ++ s ++ w) f) (ht : b1.toNat / 16 = 10)
    (hm : Admits max (u16 pkid ++ s ++ w).length)
    (hs : Sec mode Spec.UnsubscribeProperties.allowed ps s)
    (hw : SeqRep (fun f w => TextField mode f ∧ w = str f) filters w) :
    Packet.read mode max (f ++ r) = (.ok (.Unsubscribe {
      pkid := pkid, filters := filters,
      properties := propsOf Spec.UnsubscribeProperties.ofList ps }), r) :=
  frame_ok hf hm (show _ = typeNum (.Unsubscribe _) from ht)
    ⟨_, s, w, rfl, propSec_of_section' (by decide) hs.1 hs.2, propsOf_map.symm, hw⟩ r

/-- C24, UNSUBACK. -/
theorem C24_unsuback (mode : StrMode) (max : Option Nat) (b1 : UInt8) (pkid : UInt16)
    (ps : List Property) (s f r : Bytes) (codes : List UnsubAckReason)
    (hf : FrameOf b1 (u16 pkid ++ s ++ codes.map unsubAckCode) f) (ht : b1.toNat / 16 = 11)
    (hm : Admits max (u16 pkid ++ s ++ codes.map unsubAckCode).length)
    (hs : Sec mode Spec.UnsubAckProperties.allowed ps s) (hn : codes ≠ []) :
    Packet.read mode max (f ++ r) = (.ok (.UnsubAck {
      pkid := pkid, reasons := codes,
      properties := propsOf Spec.UnsubAckProperties.ofList ps }), r) :=
  (C23_unsuback mode max b1 pkid s _ f r ps hf ht hm hs.1 hs.2).1 codes hn rfl

/-- C24, DISCONNECT. -/
theorem C24_disconnect (mode : StrMode) (max : Option Nat) (rc : DisconnectReasonCode)
    (ps : List Property) (s trail f r : Bytes)
    (hf : FrameOf 0xE0 ([disconnectCode rc] ++ s ++ trail) f)
    (hm : Admits max ([disconnectCode rc] ++ s ++ trail).length)
    (hs : Sec mode Spec.DisconnectProperties.allowed ps s) :
    Packet.read mode max (f ++ r) = (.ok (.Disconnect {
      reason_code := rc, properties := propsOf Spec.DisconnectProperties.ofList ps }), r) :=
  (C23_disconnect mode max _ s trail f r hf hm).1 rc ps rfl hs.1 hs.2

/-- C24, PUBACK. -/
theorem C24_puback (mode : StrMode) (max : Option Nat) (b1 : UInt8) (pkid : UInt16)
    (rc : PubAckReason) (ps : List Property) (s trail f r : Bytes)
    (hf : FrameOf b1 (u16 pkid ++ [pubAckCode rc] ++ (s ++ trail)) f) (ht : b1.toNat / 16 = 4)
    (hm : Admits max (u16 pkid ++ [pubAckCode rc] ++ (s ++ trail)).length)
    (hs : Sec mode Spec.PubAckProperties.allowed ps s) :
    Packet.read mode max (f ++ r) = (.ok (.PubAck {
      pkid := pkid, reason := rc, properties := propsOf Spec.PubAckProperties.ofList ps }), r) :=
  (C23_puback mode max b1 _ pkid (s ++ trail) f r _ hf ht hm
    (.inr ⟨ps, s, trail, rfl, hs.1, hs.2, rfl⟩)).1 rc rfl

/-- C24, PUBREC. -/
theorem C24_pubrec (mode : StrMode) (max : Option Nat) (b1 : UInt8) (pkid : UInt16)
    (rc : PubRecReason) (ps : List Property) (s trail f r : Bytes)
    (hf : FrameOf b1 (u16 pkid ++ [pubRecCode rc] ++ (s ++ trail)) f) (ht : b1.toNat / 16 = 5)
    (hm : Admits max (u16 pkid ++ [pubRecCode rc] ++ (s ++ trail)).length)
    (hs : Sec mode Spec.PubRecProperties.allowed ps s) :
    Packet.read mode max (f ++ r) = (.ok (.PubRec {
      pkid := pkid, reason := rc, properties := propsOf Spec.PubRecProperties.ofList ps }), r) :=
  (C23_pubrec mode max b1 _ pkid (s ++ trail) f r _ hf ht hm
    (.inr ⟨ps, s, trail, rfl, hs.1, hs.2, rfl⟩)).1 rc rfl

/-- C24, PUBREL. -/
theorem C24_pubrel (mode : StrMode) (max : Option Nat) (b1 : UInt8) (pkid : UInt16)
    (rc : PubRelReason) (ps : List Property) (s trail f r : Bytes)
    (hf : FrameOf b1 (u16 pkid ++ [pubRelCode rc] ++ (s ++ trail)) f) (ht : b1.toNat / 16 = 6)
    (hm : Admits max (u16 pkid ++ [pubRelCode rc] ++ (s ++ trail)).length)
    (hs : Sec mode Spec.PubRelProperties.allowed ps s) :
    Packet.read mode max (f ++ r) = (.ok (.PubRel {
      pkid := pkid, reason := rc, properties := propsOf Spec.PubRelProperties.ofList ps }), r) :=
  (C23_pubrel mode max b1 _ pkid (s ++ trail) f r _ hf ht hm
    (.inr ⟨ps, s, trail, rfl, hs.1, hs.2, rfl⟩)).1 rc rfl

/-- C24, PUBCOMP. -/
theorem C24_pubcomp (mode : StrMode) (max : Option Nat) (b1 : UInt8) (pkid : UInt16)
    (rc : PubCompReason) (ps : List Property) (s trail f r : Bytes)
    (hf : FrameOf b1 (u16 pkid ++ [pubCompCode rc] ++ (s ++ trail)) f) (ht : b1.toNat / 16 = 7)
    (hm : Admits max (u16 pkid ++ [pubCompCode rc] ++ (s ++ trail)).length)
    (hs : Sec mode Spec.PubCompProperties.allowed ps s) :
    Packet.read mode max (f ++ r) = (.ok (.PubComp {
      pkid := pkid, reason := rc, properties := propsOf Spec.PubCompProperties.ofList ps }), r) :=
  (C23_pubcomp mode max b1 _ pkid (s ++ trail) f r _ hf ht hm
    (.inr ⟨ps, s, trail, rfl, hs.1, hs.2, rfl⟩)).1 rc rfl

/-- The exception is real: in this well-formed PUBLISH (topic `t`, QoS 0) the section of 6 bytes
holds three subscription identifiers, and the library reads only the first two; the third ends up
in the payload. -/
theorem C24_publish_exception :
    Sec .utf8 Spec.PublishProperties.allowed
      [.subscriptionIdentifier 1, .subscriptionIdentifier 2, .subscriptionIdentifier 3]
      [6, 0x0B, 1, 0x0B, 2, 0x0B, 3] ∧
    Packet.read .utf8 none [0x30, 10, 0, 1, 0x74, 6, 0x0B, 1, 0x0B, 2, 0x0B, 3] =
      (.ok (.Publish {
        dup := false, qos := .AtMostOnce, retain := false, topic := [0x74], pkid := 0,
        payload := [0x0B, 3],
        properties := some {
          payload_format_indicator := none, message_expiry_interval := none, topic_alias := none,
          response_topic := none, correlation_data := none, user_properties := [],
          subscription_identifiers := [1, 2], content_type := none } }), []) := by
  refine ⟨⟨sectionRep_enc [.subscriptionIdentifier 1, .subscriptionIdentifier 2,
    .subscriptionIdentifier 3] (by decide) (by decide +kernel) (by decide +kernel), by decide +kernel⟩,
    by decide +kernel⟩

/-- Cases that meet the hypotheses: a PUBACK whose section holds user properties around two
reason strings. -/
example : Packet.read .utf8 none
    ([0x40, 26, 0, 7, 0x10, 22, 0x26, 0, 1, 0x61, 0, 1, 0x62, 0x1F, 0, 1, 0x63, 0x1F, 0, 1, 0x64,
      0x26, 0, 1, 0x65, 0, 1, 0x66] ++ [0xC0]) =
    (.ok (.PubAck {
      pkid := 7, reason := .NoMatchingSubscribers,
      properties := some {
        reason_string := some [0x64],
        user_properties := [([0x61], [0x62]), ([0x65], [0x66])] } }), [0xC0]) := by
  refine C24_puback .utf8 none 0x40 7 .NoMatchingSubscribers
    [.userProperty [0x61] [0x62], .reasonString [0x63], .reasonString [0x64],
      .userProperty [0x65] [0x66]]
    [22, 0x26, 0, 1, 0x61, 0, 1, 0x62, 0x1F, 0, 1, 0x63, 0x1F, 0, 1, 0x64, 0x26, 0, 1, 0x65, 0, 1,
      0x66] [] _ _ (frameOf_small (by decide +kernel) (by decide +kernel)) (by decide)
      (by intro m hm; cases hm) ⟨sectionRep_enc _ (by decide) (by decide +kernel)
      (by decide +kernel), by decide +kernel⟩

/-- C24_connect and C24_will: two receive maxima, will with content type behind a user property. -/
example : Packet.read .utf8 (some 100)
    ([0x10, 47, 0, 4, 0x4D, 0x51, 0x54, 0x54, 5, 0x06, 0, 10, 11, 0x21, 0, 1, 0x11, 0, 0, 0, 9, 0x21,
      0, 2, 0, 1, 0x63, 11, 0x26, 0, 1, 0x61, 0, 1, 0x62, 0x03, 0, 1, 0x74, 0, 1, 0x77, 0, 4, 1, 2, 3, 4, 0xAA]
      ++ []) =
    (.ok (.Connect {
      keep_alive := 10, client_id := [0x63], clean_start := true,
      properties := some {
        session_expiry_interval := some 9, receive_maximum := some 2, max_packet_size := none,
        topic_alias_max := none, request_response_info := none, request_problem_info := none,
        user_properties := [], authentication_method := none, authentication_data := none } }
      (some {
        topic := [0x77], message := [1, 2, 3, 4], qos := .AtMostOnce, retain := false,
        properties := some {
          delay_interval := none, payload_format_indicator := none,
          message_expiry_interval := none, content_type := some [0x74], response_topic := none,
          correlation_data := none, user_properties := [([0x61], [0x62])] } }) none), []) := by
  refine C24_connect .utf8 (some 100) 0x10 0x06 10
    [.receiveMaximum 1, .sessionExpiryInterval 9, .receiveMaximum 2]
    [11, 0x21, 0, 1, 0x11, 0, 0, 0, 9, 0x21, 0, 2] [0x63]
    ([11, 0x26, 0, 1, 0x61, 0, 1, 0x62, 0x03, 0, 1, 0x74] ++ str [0x77] ++ str [1, 2, 3, 4]) []
    [0xAA] _ _ _ none (frameOf_small (by decide +kernel) (by decide +kernel)) (by decide)
    (by intro m hm; cases hm; decide +kernel)
    ⟨sectionRep_enc _ (by decide) (by decide +kernel) (by decide +kernel), by decide +kernel⟩
    (by decide +kernel) ?_ ⟨[], [], [], [], .inr (by decide), .inr (by decide), rfl, rfl⟩
  exact C24_will .utf8 0x06 .AtMostOnce [.userProperty [0x61] [0x62], .contentType [0x74]] _ _ _
    ⟨sectionRep_enc _ (by decide) (by decide +kernel) (by decide +kernel), by decide +kernel⟩
    (by decide) (by decide) (by decide) (by decide)

/-- C24_connack. -/
example : Packet.read .utf8 none
    ([0x20, 12, 1, 0x87, 9, 0x24, 1, 0x1F, 0, 1, 0x72, 0x21, 0, 10] ++ []) =
    (.ok (.ConnAck {
      session_present := true, code := .NotAuthorized,
      properties := some {
        session_expiry_interval := none, receive_max := some 10, max_qos := some 1,
        retain_available := none, max_packet_size := none, assigned_client_identifier := none,
        topic_alias_max := none, reason_string := some [0x72], user_properties := [],
        wildcard_subscription_available := none, subscription_identifiers_available := none,
        shared_subscription_available := none, server_keep_alive := none,
        response_information := none, server_reference := none, authentication_method := none,
        authentication_data := none } }), []) :=
  C24_connack .utf8 none 0x20 1 0x87 [9, 0x24, 1, 0x1F, 0, 1, 0x72, 0x21, 0, 10] [] _ _
    [.maximumQos 1, .reasonString [0x72], .receiveMaximum 10] .NotAuthorized
    (frameOf_small (by decide +kernel) (by decide +kernel)) (by decide) (by intro m hm; cases hm)
    ⟨sectionRep_enc _ (by decide) (by decide +kernel) (by decide +kernel), by decide +kernel⟩ rfl

/-- C24_publish_partial: identifiers in front of other properties, as long as enough bytes
follow. -/
example : Packet.read .utf8 none
    ([0x3D, 20, 0, 1, 0x74, 0, 7, 11, 0x0B, 1, 0x0B, 2, 0x26, 0, 1, 0x61, 0, 1, 0x62, 0xDE, 0xAD, 0xBE]
      ++ [0x30]) =
    (.ok (.Publish {
      dup := true, qos := .ExactlyOnce, retain := true, topic := [0x74], pkid := 7,
      payload := [0xDE, 0xAD, 0xBE],
      properties := some {
        payload_format_indicator := none, message_expiry_interval := none, topic_alias := none,
        response_topic := none, correlation_data := none,
        user_properties := [([0x61], [0x62])], subscription_identifiers := [1, 2],
        content_type := none } }), [0x30]) := by
  refine C24_publish_partial .utf8 none 0x3D .ExactlyOnce 7
    [.subscriptionIdentifier 1, .subscriptionIdentifier 2, .userProperty [0x61] [0x62]] [0x74]
    [11, 0x0B, 1, 0x0B, 2, 0x26, 0, 1, 0x61, 0, 1, 0x62] [0xDE, 0xAD, 0xBE] _ _
    (frameOf_small (by decide +kernel) (by decide +kernel)) (by decide) (by intro m hm; cases hm)
    (by decide) (by decide) (by decide +kernel)
    ⟨sectionRep_enc _ (by decide) (by decide +kernel) (by decide +kernel), by decide +kernel⟩ ?_
  intro pre p post h
  rcases pre with _ | ⟨a, _ | ⟨b, _ | ⟨c, _⟩⟩⟩ <;> simp at h
  · obtain ⟨rfl, rfl⟩ := h; decide +kernel
  · obtain ⟨rfl, rfl, rfl⟩ := h; decide +kernel
  · obtain ⟨rfl, rfl, rfl, rfl⟩ := h; decide +kernel

/-- C24_subscribe_partial. -/
example : Packet.read .utf8 none ([0x82, 9, 0, 7, 2, 0x0B, 5, 0, 1, 0x23, 0x2E] ++ []) =
    (.ok (.Subscribe {
      pkid := 7,
      filters := [{
        path := [0x23], qos := .ExactlyOnce, nolocal := true, preserve_retain := true,
        retain_forward_rule := .Never }],
      properties := some { id := some 5, user_properties := [] } }), []) :=
  C24_subscribe_partial .utf8 none 0x82 7 [.subscriptionIdentifier 5] [2, 0x0B, 5]
    ([0, 1, 0x23, 0x2E] ++ []) _ _ _
    (frameOf_small (by decide +kernel) (by decide +kernel)) (by decide) (by intro m hm; cases hm)
    ⟨sectionRep_enc _ (by decide) (by decide +kernel) (by decide +kernel), by decide +kernel⟩
    (C24_driftSafe _ [2, 0x0B, 5] (sectionRep_enc _ (by decide) (by decide +kernel)
      (by decide +kernel)) (by decide)) (by simp)
    (.cons ⟨by decide +kernel, 0x2E, by decide +kernel, by decide +kernel⟩ .nil)

/-- C24_suback and C24_unsuback. -/
example : Packet.read .utf8 none
    ([0x90, 9, 0, 7, 4, 0x1F, 0, 1, 0x72, 0x80, 0x01] ++ []) =
    (.ok (.SubAck {
      pkid := 7, return_codes := [.Unspecified, .Success .AtLeastOnce],
      properties := some { reason_string := some [0x72], user_properties := [] } }), []) :=
  C24_suback .utf8 none 0x90 7 [.reasonString [0x72]] [4, 0x1F, 0, 1, 0x72] _ _
    [.Unspecified, .Success .AtLeastOnce]
    (frameOf_small (by decide +kernel) (by decide +kernel)) (by decide) (by intro m hm; cases hm)
    ⟨sectionRep_enc _ (by decide) (by decide +kernel) (by decide +kernel), by decide +kernel⟩
    (by simp)

example : Packet.read .utf8 none
    ([0xB0, 9, 0, 7, 4, 0x1F, 0, 1, 0x72, 0x80, 0x11] ++ []) =
    (.ok (.UnsubAck {
      pkid := 7, reasons := [.UnspecifiedError, .NoSubscriptionExisted],
      properties := some { reason_string := some [0x72], user_properties := [] } }), []) :=
  C24_unsuback .utf8 none 0xB0 7 [.reasonString [0x72]] [4, 0x1F, 0, 1, 0x72] _ _
    [.UnspecifiedError, .NoSubscriptionExisted]
    (frameOf_small (by decide +kernel) (by decide +kernel)) (by decide) (by intro m hm; cases hm)
    ⟨sectionRep_enc _ (by decide) (by decide +kernel) (by decide +kernel), by decide +kernel⟩
    (by simp)

/-- C24_unsubscribe. -/
example : Packet.read .utf8 none
    ([0xA2, 13, 0, 7, 7, 0x26, 0, 1, 0x61, 0, 1, 0x62, 0, 1, 0x23] ++ []) =
    (.ok (.Unsubscribe {
      pkid := 7, filters := [[0x23]],
      properties := some { user_properties := [([0x61], [0x62])] } }), []) :=
  C24_unsubscribe .utf8 none 0xA2 7 [.userProperty [0x61] [0x62]]
    [7, 0x26, 0, 1, 0x61, 0, 1, 0x62] ([0, 1, 0x23] ++ []) _ _ [[0x23]]
    (frameOf_small (by decide +kernel) (by decide +kernel)) (by decide) (by intro m hm; cases hm)
    ⟨sectionRep_enc _ (by decide) (by decide +kernel) (by decide +kernel), by decide +kernel⟩
    (.cons ⟨by decide +kernel, by decide +kernel⟩ .nil)

/-- C24_disconnect. -/
example : Packet.read .utf8 none
    ([0xE0, 11, 0x8E, 9, 0x1F, 0, 1, 0x72, 0x11, 0, 0, 0, 1] ++ []) =
    (.ok (.Disconnect {
      reason_code := .SessionTakenOver,
      properties := some {
        session_expiry_interval := some 1, reason_string := some [0x72], user_properties := [],
        server_reference := none } }), []) :=
  C24_disconnect .utf8 none .SessionTakenOver [.reasonString [0x72], .sessionExpiryInterval 1]
    [9, 0x1F, 0, 1, 0x72, 0x11, 0, 0, 0, 1] [] _ _
    (frameOf_small (by decide +kernel) (by decide +kernel)) (by intro m hm; cases hm)
    ⟨sectionRep_enc _ (by decide) (by decide +kernel) (by decide +kernel), by decide +kernel⟩

/-- Properties of different kinds exchanged. -/
example : SameByKind [.userProperty [0x61] [0x62], .reasonString [0x63], .userProperty [0x65] []]
    [.reasonString [0x63], .userProperty [0x61] [0x62], .userProperty [0x65] []] := by
  intro k
  by_cases h1 : k = 0x26
  · subst h1; decide
  · by_cases h2 : k = 0x1F
    · subst h2; decide
    · have e1 : (0x26 : UInt8) ≠ k := fun h => h1 h.symm
      have e2 : (0x1F : UInt8) ≠ k := fun h => h2 h.symm
      simp [Property.id, e1, e2]

end Props
