import Verif.Spec.Fields
import Verif.Spec.Topic
/-
MQTT 5 frames by the standard alone, with the restrictions that this library does not check:
fixed header flags (also no DUP with QoS 0), shortest numbers, reserved bits, exact property
sections, properties at most once, value ranges, texts without U+0000, authentication data only with
a method, Session Present only with success, topic names without wildcards and not empty (but for a
topic alias), well-formed topic filters, messages of the announced format, no trailing bytes. `Conforms f p ps` says that `f` is such a
frame, that its property section (not that of the will) holds `ps` in this order, and that `p` is the
packet of this library that stands for it. Not expressed: AUTH (not supported by the library),
the rules about the order of packets in a session, and which side may send a packet or property.
-/
namespace Spec

open Mqtt (Bytes StrMode Packet QoS)

/-- MQTT 5, 1.5.4 UTF-8 Encoded String. -/
def Text5 (s : Bytes) : Prop := s.length ≤ 65535 ∧ IsUtf8 s ∧ 0 ∉ s

/-- MQTT 5, 4.7.1 and 4.7.3: a topic name. -/
def Name5 (s : Bytes) : Prop := Text5 s ∧ s ≠ [] ∧ 0x23 ∉ s ∧ 0x2B ∉ s

/-- The filter is one of a shared subscription: it begins with "$share/". -/
def IsShared (s rest : Bytes) : Prop := s = [0x24, 0x73, 0x68, 0x61, 0x72, 0x65, 0x2F] ++ rest

/-- MQTT 5, 4.8.2: behind "$share/" there are a share name and a topic filter. -/
def Shared5 (s : Bytes) : Prop :=
  ∀ rest, IsShared s rest →
    ∃ g f, rest = g ++ 0x2F :: f ∧ g ≠ [] ∧ 0x2F ∉ g ∧ 0x23 ∉ g ∧ 0x2B ∉ g ∧ f ≠ []

/-- MQTT 5, 4.7.1, 4.7.3 and 4.8.2: a topic filter. -/
def Filter5 (s : Bytes) : Prop :=
  Text5 s ∧ (∃ cs, s = Topic.bytes cs ∧ Topic.ValidFilter cs) ∧ Shared5 s

/-- MQTT 5, 3.8.3.1: No Local is not set for shared subscriptions. -/
def NoLocal5 (f : Mqtt.Filter) : Prop := f.nolocal = true → ∀ rest, ¬ IsShared f.path rest

/-- MQTT 5, 2.2.2.2 and the sections on the properties: permitted values. -/
def Property.Value5 : Property → Prop
  | .payloadFormatIndicator v | .requestProblemInformation v | .requestResponseInformation v
  | .maximumQos v | .retainAvailable v | .wildcardSubscriptionAvailable v
  | .subscriptionIdentifierAvailable v | .sharedSubscriptionAvailable v => v.toNat ≤ 1
  | .receiveMaximum v | .topicAlias v => v ≠ 0
  | .maximumPacketSize v => v ≠ 0
  | .subscriptionIdentifier n => 0 < n ∧ n ≤ maxVarint
  | .correlationData v | .authenticationData v => v.length ≤ 65535
  | .responseTopic v => Name5 v
  | .contentType v | .assignedClientIdentifier v | .authenticationMethod v
  | .responseInformation v | .serverReference v | .reasonString v => Text5 v
  | .userProperty k v => Text5 k ∧ Text5 v
  | .serverKeepAlive _ | .topicAliasMaximum _ | .messageExpiryInterval _
  | .sessionExpiryInterval _ | .willDelayInterval _ => True

/-- MQTT 5, 3.1.2.11.10: no authentication data without an authentication method. -/
def Auth5 (ps : List Property) : Prop :=
  ∀ d, .authenticationData d ∈ ps → ∃ m, .authenticationMethod m ∈ ps

/-- MQTT 5, 3.1.3.2.3 and 3.3.2.3.2: a message with payload format indicator 1 is UTF-8. -/
def Payload5 (message : Bytes) (ps : List Property) : Prop :=
  .payloadFormatIndicator 1 ∈ ps → IsUtf8 message

/-- MQTT 5, 3.3.2.1: the topic of a PUBLISH is empty only if there is a topic alias. -/
def Target5 (topic : Bytes) (ps : List Property) : Prop :=
  Name5 topic ∨ topic = [] ∧ ∃ a, .topicAlias a ∈ ps

/-- MQTT 5, 2.2.2: `s` is a property section with the properties `ps`, of the identifiers `ids`;
only those in `many` may occur more than once. -/
structure Section5 (ids many : List UInt8) (ps : List Property) (s : Bytes) : Prop where
  bytes : s = propSection ps
  length : (encProps ps).length ≤ maxVarint
  ids : ∀ p ∈ ps, p.id ∈ ids
  values : ∀ p ∈ ps, p.Value5
  once : ∀ k, k ∉ many → (ps.filter (·.id = k)).length ≤ 1

/-- MQTT 5, 3.1.3.5 and 3.1.3.6: user name (text) and password (binary data). -/
def Login5 (flags : UInt8) (user pass : Bytes) : Prop :=
  (bitAt flags 7 = true → Text5 user) ∧ (bitAt flags 6 = true → pass.length ≤ 65535)

/-- MQTT 5, section 3: bodies. `Body5 flags body p ps`: `flags` are the lower four bits of the first
byte. -/
inductive Body5 : Nat → Bytes → Packet → List Property → Prop
  /-- 3.1, no will. -/
  | connect {flags : UInt8} {keepAlive : UInt16} {ps : List Property}
      {s clientId user pass : Bytes} :
      flags.toNat % 2 = 0 → flags.toNat / 4 % 16 = 0 →
      Section5 ConnectProperties.allowed [0x26] ps s → Auth5 ps → Text5 clientId →
      Login5 flags user pass →
      Body5 0 (connectBody flags keepAlive s clientId [] [] [] user pass [])
        (.Connect {
            keep_alive := keepAlive, client_id := clientId, clean_start := bitAt flags 1,
            properties := propsOf ConnectProperties.ofList ps }
          none (connectLogin flags user pass)) ps
  /-- 3.1, with a will. -/
  | connectWill {flags : UInt8} {keepAlive : UInt16} {ps wps : List Property} {q : QoS}
      {s clientId ws topic message user pass : Bytes} :
      flags.toNat % 2 = 0 → flags.toNat / 4 % 2 = 1 → qosNum q = flags.toNat / 8 % 4 →
      Section5 ConnectProperties.allowed [0x26] ps s → Auth5 ps → Text5 clientId →
      Section5 LastWillProperties.allowed [0x26] wps ws → Name5 topic → message.length ≤ 65535 →
      Login5 flags user pass → Payload5 message wps →
      Body5 0 (connectBody flags keepAlive s clientId ws topic message user pass [])
        (.Connect {
            keep_alive := keepAlive, client_id := clientId, clean_start := bitAt flags 1,
            properties := propsOf ConnectProperties.ofList ps }
          (some {
            topic := topic, message := message, qos := q, retain := bitAt flags 5,
            properties := propsOf LastWillProperties.ofList wps })
          (connectLogin flags user pass)) ps
  /-- 3.2; Session Present only with success. -/
  | connAck {present : Bool} {code : UInt8} {rc : Mqtt.ConnectReturnCode} {ps : List Property}
      {s : Bytes} :
      connAckCode rc = some code → (present = true → code = 0) →
      Section5 ConnAckProperties.allowed [0x26] ps s →
      Body5 0 ([if present then 1 else 0, code] ++ s)
        (.ConnAck {
          session_present := present, code := rc,
          properties := propsOf ConnAckProperties.ofList ps }) ps
  /-- 3.3, QoS 0: no packet identifier; DUP is 0. -/
  | publish0 {flags : Nat} {topic s payload : Bytes} {ps : List Property} :
      flags < 2 → Target5 topic ps →
      Section5 PublishProperties.allowed [0x26, 0x0B] ps s → Payload5 payload ps →
      Body5 flags (str topic ++ s ++ payload)
        (.Publish {
          dup := false, qos := .AtMostOnce, retain := decide (flags = 1),
          topic := topic, pkid := 0, payload := payload,
          properties := propsOf PublishProperties.ofList ps }) ps
  /-- 3.3, QoS 1 and 2. -/
  | publish {flags : Nat} {q : QoS} {pkid : UInt16} {topic s payload : Bytes}
      {ps : List Property} :
      flags < 16 → flags / 2 % 4 = qosNum q → q ≠ .AtMostOnce → pkid ≠ 0 → Target5 topic ps →
      Section5 PublishProperties.allowed [0x26, 0x0B] ps s → Payload5 payload ps →
      Body5 flags (str topic ++ u16 pkid ++ s ++ payload)
        (.Publish {
          dup := decide (flags / 8 = 1), qos := q, retain := decide (flags % 2 = 1),
          topic := topic, pkid := pkid, payload := payload,
          properties := propsOf PublishProperties.ofList ps }) ps
  /-- 3.4, short form. -/
  | pubAck2 {pkid : UInt16} : pkid ≠ 0 →
      Body5 0 (u16 pkid) (.PubAck { pkid := pkid, reason := .Success, properties := none }) []
  /-- 3.4, short form. -/
  | pubAck3 {pkid : UInt16} {rc : Mqtt.PubAckReason} : pkid ≠ 0 →
      Body5 0 (u16 pkid ++ [pubAckCode rc])
        (.PubAck { pkid := pkid, reason := rc, properties := none }) []
  /-- 3.4. -/
  | pubAck {pkid : UInt16} {rc : Mqtt.PubAckReason} {ps : List Property} {s : Bytes} : pkid ≠ 0 →
      Section5 PubAckProperties.allowed [0x26] ps s →
      Body5 0 (u16 pkid ++ [pubAckCode rc] ++ s)
        (.PubAck {
          pkid := pkid, reason := rc, properties := propsOf PubAckProperties.ofList ps }) ps
  /-- 3.5, short form. -/
  | pubRec2 {pkid : UInt16} : pkid ≠ 0 →
      Body5 0 (u16 pkid) (.PubRec { pkid := pkid, reason := .Success, properties := none }) []
  /-- 3.5, short form. -/
  | pubRec3 {pkid : UInt16} {rc : Mqtt.PubRecReason} : pkid ≠ 0 →
      Body5 0 (u16 pkid ++ [pubRecCode rc])
        (.PubRec { pkid := pkid, reason := rc, properties := none }) []
  /-- 3.5. -/
  | pubRec {pkid : UInt16} {rc : Mqtt.PubRecReason} {ps : List Property} {s : Bytes} : pkid ≠ 0 →
      Section5 PubRecProperties.allowed [0x26] ps s →
      Body5 0 (u16 pkid ++ [pubRecCode rc] ++ s)
        (.PubRec {
          pkid := pkid, reason := rc, properties := propsOf PubRecProperties.ofList ps }) ps
  /-- 3.6, short form. -/
  | pubRel2 {pkid : UInt16} : pkid ≠ 0 →
      Body5 2 (u16 pkid) (.PubRel { pkid := pkid, reason := .Success, properties := none }) []
  /-- 3.6, short form. -/
  | pubRel3 {pkid : UInt16} {rc : Mqtt.PubRelReason} : pkid ≠ 0 →
      Body5 2 (u16 pkid ++ [pubRelCode rc])
        (.PubRel { pkid := pkid, reason := rc, properties := none }) []
  /-- 3.6. -/
  | pubRel {pkid : UInt16} {rc : Mqtt.PubRelReason} {ps : List Property} {s : Bytes} : pkid ≠ 0 →
      Section5 PubRelProperties.allowed [0x26] ps s →
      Body5 2 (u16 pkid ++ [pubRelCode rc] ++ s)
        (.PubRel {
          pkid := pkid, reason := rc, properties := propsOf PubRelProperties.ofList ps }) ps
  /-- 3.7, short form. -/
  | pubComp2 {pkid : UInt16} : pkid ≠ 0 →
      Body5 0 (u16 pkid) (.PubComp { pkid := pkid, reason := .Success, properties := none }) []
  /-- 3.7, short form. -/
  | pubComp3 {pkid : UInt16} {rc : Mqtt.PubCompReason} : pkid ≠ 0 →
      Body5 0 (u16 pkid ++ [pubCompCode rc])
        (.PubComp { pkid := pkid, reason := rc, properties := none }) []
  /-- 3.7. -/
  | pubComp {pkid : UInt16} {rc : Mqtt.PubCompReason} {ps : List Property} {s : Bytes} :
      pkid ≠ 0 → Section5 PubCompProperties.allowed [0x26] ps s →
      Body5 0 (u16 pkid ++ [pubCompCode rc] ++ s)
        (.PubComp {
          pkid := pkid, reason := rc, properties := propsOf PubCompProperties.ofList ps }) ps
  /-- 3.8. -/
  | subscribe {pkid : UInt16} {items : List (Bytes × UInt8)} {fs : List Mqtt.Filter}
      {ps : List Property} {s : Bytes} : pkid ≠ 0 →
      Section5 SubscribeProperties.allowed [0x26] ps s → items ≠ [] → FiltersAre items fs →
      (∀ i ∈ items, Filter5 i.1 ∧ i.2.toNat < 64) → (∀ f ∈ fs, NoLocal5 f) →
      Body5 2 (u16 pkid ++ s ++ filterItems items)
        (.Subscribe {
          pkid := pkid, filters := fs, properties := propsOf SubscribeProperties.ofList ps }) ps
  /-- 3.9. -/
  | subAck {pkid : UInt16} {rcs : List Mqtt.SubscribeReasonCode} {ps : List Property}
      {s : Bytes} : pkid ≠ 0 → Section5 SubAckProperties.allowed [0x26] ps s → rcs ≠ [] →
      Body5 0 (u16 pkid ++ s ++ rcs.map subAckCode)
        (.SubAck {
          pkid := pkid, return_codes := rcs, properties := propsOf SubAckProperties.ofList ps }) ps
  /-- 3.10. -/
  | unsubscribe {pkid : UInt16} {fs : List Bytes} {ps : List Property} {s : Bytes} : pkid ≠ 0 →
      Section5 UnsubscribeProperties.allowed [0x26] ps s → fs ≠ [] → (∀ f ∈ fs, Filter5 f) →
      Body5 2 (u16 pkid ++ s ++ fs.flatMap str)
        (.Unsubscribe {
          pkid := pkid, filters := fs, properties := propsOf UnsubscribeProperties.ofList ps }) ps
  /-- 3.11. -/
  | unsubAck {pkid : UInt16} {rcs : List Mqtt.UnsubAckReason} {ps : List Property}
      {s : Bytes} : pkid ≠ 0 → Section5 UnsubAckProperties.allowed [0x26] ps s → rcs ≠ [] →
      Body5 0 (u16 pkid ++ s ++ rcs.map unsubAckCode)
        (.UnsubAck {
          pkid := pkid, reasons := rcs, properties := propsOf UnsubAckProperties.ofList ps }) ps
  /-- 3.12. -/
  | pingReq : Body5 0 [] .PingReq []
  /-- 3.13. -/
  | pingResp : Body5 0 [] .PingResp []
  /-- 3.14, short form. -/
  | disconnect0 :
      Body5 0 [] (.Disconnect { reason_code := .NormalDisconnection, properties := none }) []
  /-- 3.14, short form. -/
  | disconnect1 {rc : Mqtt.DisconnectReasonCode} :
      Body5 0 [disconnectCode rc] (.Disconnect { reason_code := rc, properties := none }) []
  /-- 3.14. -/
  | disconnect {rc : Mqtt.DisconnectReasonCode} {ps : List Property} {s : Bytes} :
      Section5 DisconnectProperties.allowed [0x26] ps s →
      Body5 0 ([disconnectCode rc] ++ s)
        (.Disconnect {
          reason_code := rc, properties := propsOf DisconnectProperties.ofList ps }) ps

/-- MQTT 5, 2.1: a control packet. -/
def Conforms (f : Bytes) (p : Packet) (ps : List Property) : Prop :=
  ∃ flags bd, Body5 flags bd p ps ∧ bd.length ≤ maxVarint ∧
    f = UInt8.ofNat (16 * typeNum p + flags) :: (varint bd.length ++ bd)

/-- What this library needs beyond the standard: a DISCONNECT is not of the form with a reason and
no property length, the miscount of subscription identifiers in a PUBLISH does no harm, and with
the UTF-8 build feature passwords are UTF-8. -/
def Supported (mode : StrMode) (f : Bytes) (p : Packet) (ps : List Property) : Prop :=
  match p with
  | .Disconnect _ => f.length ≠ 3
  | .Publish _ => DriftSafe ps
  | .Connect _ _ (some l) => TextOk mode l.password
  | _ => True

/-- A packet value within the rules of MQTT 5 for values: permitted property values, texts without
U+0000, packet identifiers not 0, lists not empty, no DUP with QoS 0, no Session Present
with an error, no authentication data without a method, topic names and filters
well-formed, messages that are UTF-8 if they are announced as such. (`write` does not check these rules; lengths and the packet identifier of a PUBLISH it does check.) -/
def Values5 (p : Packet) : Prop :=
  (∀ q ∈ props p, q.Value5) ∧
  match p with
  | .Connect c will login => Text5 c.client_id ∧ (∀ w, will = some w → Name5 w.topic) ∧
      (∀ l, login = some l → Text5 l.username) ∧
      (∀ ps, c.properties = some ps → ps.authentication_method = none →
        ps.authentication_data = none) ∧
      (∀ w ps, will = some w → w.properties = some ps → ps.payload_format_indicator = some 1 →
        IsUtf8 w.message)
  | .ConnAck p => p.session_present = true → p.code = .Success
  | .Publish p =>
      (Name5 p.topic ∨
        p.topic = [] ∧ ∃ ps, p.properties = some ps ∧ ps.topic_alias ≠ none) ∧
      (p.qos = .AtMostOnce → p.dup = false) ∧
      (∀ ps, p.properties = some ps → ps.payload_format_indicator = some 1 → IsUtf8 p.payload)
  | .PubAck p => p.pkid ≠ 0
  | .PubRec p => p.pkid ≠ 0
  | .PubRel p => p.pkid ≠ 0
  | .PubComp p => p.pkid ≠ 0
  | .Subscribe p => p.pkid ≠ 0 ∧ p.filters ≠ [] ∧ (∀ f ∈ p.filters, Filter5 f.path) ∧
      ∀ f ∈ p.filters, NoLocal5 f
  | .SubAck p => p.pkid ≠ 0 ∧ p.return_codes ≠ []
  | .Unsubscribe p => p.pkid ≠ 0 ∧ p.filters ≠ [] ∧ ∀ f ∈ p.filters, Filter5 f
  | .UnsubAck p => p.pkid ≠ 0 ∧ p.reasons ≠ []
  | .PingReq | .PingResp | .Disconnect _ => True

/-- MQTT 5, table 2-4: the packet types in which a property may occur; 0 stands for the will
properties, 15 (AUTH) is included. -/
def table24 (id : UInt8) : List Nat :=
  match id with
  | 0x01 | 0x02 | 0x03 | 0x08 | 0x09 => [3, 0]
  | 0x0B => [3, 8]
  | 0x11 => [1, 2, 14]
  | 0x12 | 0x13 => [2]
  | 0x15 | 0x16 => [1, 2, 15]
  | 0x17 | 0x19 => [1]
  | 0x18 => [0]
  | 0x1A => [2]
  | 0x1C => [2, 14]
  | 0x1F => [2, 4, 5, 6, 7, 9, 11, 14, 15]
  | 0x21 | 0x22 => [1, 2]
  | 0x23 => [3]
  | 0x24 | 0x25 => [2]
  | 0x26 => [1, 2, 3, 0, 4, 5, 6, 7, 8, 9, 10, 11, 14, 15]
  | 0x27 => [1, 2]
  | 0x28 | 0x29 | 0x2A => [2]
  | _ => []

/-- MQTT 5, section 2.4 and tables 3-1 to 3-10: the reason codes of each packet type. -/
def reasonTable (type : Nat) : List UInt8 :=
  match type with
  | 2 => [0x00, 0x80, 0x81, 0x82, 0x83, 0x84, 0x85, 0x86, 0x87, 0x88, 0x89, 0x8A, 0x8C, 0x90, 0x95,
      0x97, 0x99, 0x9A, 0x9B, 0x9C, 0x9D, 0x9F]
  | 4 | 5 => [0x00, 0x10, 0x80, 0x83, 0x87, 0x90, 0x91, 0x97, 0x99]
  | 6 | 7 => [0x00, 0x92]
  | 9 => [0x00, 0x01, 0x02, 0x80, 0x83, 0x87, 0x8F, 0x91, 0x97, 0x9E, 0xA1, 0xA2]
  | 11 => [0x00, 0x11, 0x80, 0x83, 0x87, 0x8F, 0x91]
  | 14 => [0x00, 0x04, 0x80, 0x81, 0x82, 0x83, 0x87, 0x89, 0x8B, 0x8D, 0x8E, 0x8F, 0x90, 0x93, 0x94,
      0x95, 0x96, 0x97, 0x98, 0x99, 0x9A, 0x9B, 0x9C, 0x9D, 0x9E, 0x9F, 0xA0, 0xA1, 0xA2]
  | _ => []

/-- MQTT 5, tables 2-1 and 2-2: the first bytes of control packets, AUTH left out. -/
def firstBytes : List UInt8 :=
  [0x10, 0x20, 0x30, 0x31, 0x32, 0x33, 0x34, 0x35, 0x3A, 0x3B, 0x3C, 0x3D, 0x40, 0x50,
    0x62, 0x70, 0x82, 0x90, 0xA2, 0xB0, 0xC0, 0xD0, 0xE0]

/-- The number in a property, if its value is one. -/
def Property.number : Property → Option Nat
  | .payloadFormatIndicator v | .requestProblemInformation v | .requestResponseInformation v
  | .maximumQos v | .retainAvailable v | .wildcardSubscriptionAvailable v
  | .subscriptionIdentifierAvailable v | .sharedSubscriptionAvailable v => some v.toNat
  | .serverKeepAlive v | .receiveMaximum v | .topicAliasMaximum v | .topicAlias v => some v.toNat
  | .messageExpiryInterval v | .sessionExpiryInterval v | .willDelayInterval v
  | .maximumPacketSize v => some v.toNat
  | .subscriptionIdentifier n => some n
  | _ => none

/-- MQTT 5, 3.1.2.11, 3.1.3.2, 3.2.2.3, 3.3.2.3 and 3.8.2.1: the smallest and the greatest permitted
number of the properties with numbers, by identifier. -/
def numberRange (id : UInt8) : Nat × Nat :=
  match id with
  | 0x01 | 0x17 | 0x19 | 0x24 | 0x25 | 0x28 | 0x29 | 0x2A => (0, 1)
  | 0x13 | 0x22 => (0, 65535)
  | 0x21 | 0x23 => (1, 65535)
  | 0x02 | 0x11 | 0x18 => (0, 4294967295)
  | 0x27 => (1, 4294967295)
  | 0x0B => (1, 268435455)
  | _ => (0, 0)

end Spec
