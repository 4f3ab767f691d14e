import Verif.Spec.Grammar
import Verif.Spec.Codes
/-
MQTT 5 control packets: encoding, encodability, text fields, normal form.
Only the model's data types are used, none of its functions.
-/
namespace Spec

open Mqtt (Bytes StrMode Packet QoS RetainForwardRule)

/-- MQTT 5, 2.1: fixed header and body. -/
def frame (byte1 : UInt8) (body : Bytes) : Bytes := byte1 :: (varint body.length ++ body)

/-- A Boolean as a number. -/
def bit (b : Bool) : Nat := if b then 1 else 0

/-- Property section of an optional property record (absent and empty look the same). -/
def optSection {α : Type} (toList : α → List Property) : Option α → Bytes
  | some p => propSection (toList p)
  | none => propSection []

/-- The properties in an optional record. -/
def optList {α : Type} (toList : α → List Property) : Option α → List Property
  | some p => toList p
  | none => []

/-- First byte of the fixed header: packet type (2.1.2) and flags (2.1.3, 3.3.1). -/
def byte1 : Packet → UInt8
  | .Connect .. => 0x10
  | .ConnAck _ => 0x20
  | .Publish p => UInt8.ofNat (0x30 + 8 * bit p.dup + 2 * qosNum p.qos + bit p.retain)
  | .PubAck _ => 0x40
  | .PubRec _ => 0x50
  | .PubRel _ => 0x62
  | .PubComp _ => 0x70
  | .Subscribe _ => 0x82
  | .SubAck _ => 0x90
  | .Unsubscribe _ => 0xA2
  | .UnsubAck _ => 0xB0
  | .PingReq => 0xC0
  | .PingResp => 0xD0
  | .Disconnect _ => 0xE0

/-- CONNECT flags, MQTT 5 3.1.2.3. -/
def connectFlags (c : Mqtt.Connect) (will : Option Mqtt.LastWill) (login : Option Mqtt.Login) :
    Nat :=
  2 * bit c.clean_start
  + (match will with
    | some w => 4 + 8 * qosNum w.qos + 32 * bit w.retain
    | none => 0)
  + (match login with
    | some l => 64 * bit (!l.password.isEmpty) + 128 * bit (!l.username.isEmpty)
    | none => 0)

/-- A will in the CONNECT payload, MQTT 5 3.1.3.2-3.1.3.4. -/
def willBytes (w : Mqtt.LastWill) : Bytes :=
  optSection LastWillProperties.toList w.properties ++ str w.topic ++ str w.message

/-- A non-empty string field; this library sends an empty user name or password as absent. -/
def optStr (s : Bytes) : Bytes := if s.isEmpty then [] else str s

/-- User name and password, MQTT 5 3.1.3.5-3.1.3.6. -/
def loginBytes (l : Mqtt.Login) : Bytes := optStr l.username ++ optStr l.password

/-- Subscription options, MQTT 5 3.8.3.1. -/
def filterOptions (f : Mqtt.Filter) : Nat :=
  qosNum f.qos + 4 * bit f.nolocal + 8 * bit f.preserve_retain
  + 16 * (match f.retain_forward_rule with
    | .OnEverySubscribe => 0
    | .OnNewSubscribe => 1
    | .Never => 2)

/-- A subscription, MQTT 5 3.8.3. -/
def filterBytes (f : Mqtt.Filter) : Bytes := str f.path ++ [UInt8.ofNat (filterOptions f)]

/-- Reason code and properties of an acknowledgement, omitted when the reason is success and
there is no property record (MQTT 5 3.4.2.1). -/
def ackTail {α : Type} (code : UInt8) (toList : α → List Property) (o : Option α) : Bytes :=
  match o with
  | none => if code = 0 then [] else code :: propSection []
  | some p => code :: propSection (toList p)

/-- Variable header and payload. -/
def body : Packet → Bytes
  | .Connect c will login =>
    str [0x4D, 0x51, 0x54, 0x54] ++ [0x05] ++ [UInt8.ofNat (connectFlags c will login)]
    ++ u16 c.keep_alive ++ optSection ConnectProperties.toList c.properties ++ str c.client_id
    ++ (match will with | some w => willBytes w | none => [])
    ++ (match login with | some l => loginBytes l | none => [])
  | .ConnAck p =>
    [UInt8.ofNat (bit p.session_present), (connAckCode p.code).getD 0]
    ++ optSection ConnAckProperties.toList p.properties
  | .Publish p =>
    str p.topic ++ (if p.qos = .AtMostOnce then [] else u16 p.pkid)
    ++ optSection PublishProperties.toList p.properties ++ p.payload
  | .PubAck p => u16 p.pkid ++ ackTail (pubAckCode p.reason) PubAckProperties.toList p.properties
  | .PubRec p => u16 p.pkid ++ ackTail (pubRecCode p.reason) PubRecProperties.toList p.properties
  | .PubRel p => u16 p.pkid ++ ackTail (pubRelCode p.reason) PubRelProperties.toList p.properties
  | .PubComp p =>
    u16 p.pkid ++ ackTail (pubCompCode p.reason) PubCompProperties.toList p.properties
  | .Subscribe p =>
    u16 p.pkid ++ optSection SubscribeProperties.toList p.properties
    ++ p.filters.flatMap filterBytes
  | .SubAck p =>
    u16 p.pkid ++ optSection SubAckProperties.toList p.properties
    ++ p.return_codes.map subAckCode
  | .Unsubscribe p =>
    u16 p.pkid ++ optSection UnsubscribeProperties.toList p.properties ++ p.filters.flatMap str
  | .UnsubAck p =>
    u16 p.pkid ++ optSection UnsubAckProperties.toList p.properties ++ p.reasons.map unsubAckCode
  | .PingReq => []
  | .PingResp => []
  | .Disconnect p =>
    ackTail (disconnectCode p.reason_code) DisconnectProperties.toList p.properties

/-- A control packet on the wire. -/
def encode (p : Packet) : Bytes := frame (byte1 p) (body p)

/-- All properties in a packet (the will's included). -/
def props : Packet → List Property
  | .Connect c will _ =>
    optList ConnectProperties.toList c.properties
    ++ (match will with
      | some w => optList LastWillProperties.toList w.properties
      | none => [])
  | .ConnAck p => optList ConnAckProperties.toList p.properties
  | .Publish p => optList PublishProperties.toList p.properties
  | .PubAck p => optList PubAckProperties.toList p.properties
  | .PubRec p => optList PubRecProperties.toList p.properties
  | .PubRel p => optList PubRelProperties.toList p.properties
  | .PubComp p => optList PubCompProperties.toList p.properties
  | .Subscribe p => optList SubscribeProperties.toList p.properties
  | .SubAck p => optList SubAckProperties.toList p.properties
  | .Unsubscribe p => optList UnsubscribeProperties.toList p.properties
  | .UnsubAck p => optList UnsubAckProperties.toList p.properties
  | .PingReq => []
  | .PingResp => []
  | .Disconnect p => optList DisconnectProperties.toList p.properties

/-- The text fields outside the properties. -/
def texts : Packet → List Bytes
  | .Connect c _ login =>
    c.client_id :: (match login with | some l => [l.username, l.password] | none => [])
  | .Publish p => [p.topic]
  | .Subscribe p => p.filters.map (·.path)
  | .Unsubscribe p => p.filters
  | _ => []

/-- All length-prefixed fields outside the properties: the texts and the will's topic and
message (binary in this library). -/
def fields (p : Packet) : List Bytes :=
  texts p ++ (match p with | .Connect _ (some w) _ => [w.topic, w.message] | _ => [])

/-- Every text in the packet is a value the `MqttString` of the build feature can hold. In Rust
this is guaranteed by the type (`String`). -/
def StringsOk (mode : StrMode) (p : Packet) : Prop :=
  (∀ s ∈ texts p, TextOk mode s) ∧ (∀ q ∈ props p, q.TextsOk mode)

/-- The packet has an encoding: fields and numbers representable, a packet identifier where one
is required, an MQTT 5 reason code, and a body within the protocol's limit. -/
def Encodable (p : Packet) : Prop :=
  (∀ s ∈ fields p, s.length ≤ 65535) ∧ (∀ q ∈ props p, q.Fits) ∧
  (body p).length ≤ maxVarint ∧
  (match p with
    | .Publish p => p.qos ≠ .AtMostOnce → p.pkid ≠ 0
    | .ConnAck p => connAckCode p.code ≠ none
    | _ => True)

/-- The string or binary values in a property. -/
def Property.strings : Property → List Bytes
  | .correlationData v | .authenticationData v => [v]
  | p => p.texts

/-- The error with which an unencodable packet may be refused: `BinaryDataTooLong` only if some
string or binary field is too long, `PayloadTooLong` only if a subscription identifier or the
body is too large, `PacketIdZero` only for a publish above QoS 0 with packet identifier 0. -/
def Refusal (p : Packet) (e : Mqtt.Err) : Prop :=
  (e = .BinaryDataTooLong ∧
    ∃ s, (s ∈ fields p ∨ ∃ q ∈ props p, s ∈ q.strings) ∧ 65535 < s.length) ∨
  (e = .PayloadTooLong ∧
    ((∃ n, .subscriptionIdentifier n ∈ props p ∧ maxVarint < n) ∨ maxVarint < (body p).length)) ∨
  (e = .PacketIdZero ∧ ∃ q, p = .Publish q ∧ q.qos ≠ .AtMostOnce ∧ q.pkid = 0)

/-- An optional property record that holds no property counts as absent. -/
def normProps {α : Type} (toList : α → List Property) (o : Option α) : Option α :=
  o.filter fun p => !(toList p).isEmpty

/-- The distinctions that have no representation on the wire are erased: an empty property
record is absent, an empty login is absent, the packet identifier of a QoS 0 publish is 0. -/
def norm : Packet → Packet
  | .Connect c will login =>
    .Connect { c with properties := normProps ConnectProperties.toList c.properties }
      (will.map fun w => { w with properties := normProps LastWillProperties.toList w.properties })
      (login.filter fun l => !(l.username.isEmpty && l.password.isEmpty))
  | .ConnAck p => .ConnAck { p with properties := normProps ConnAckProperties.toList p.properties }
  | .Publish p =>
    .Publish { p with
      pkid := if p.qos = .AtMostOnce then 0 else p.pkid
      properties := normProps PublishProperties.toList p.properties }
  | .PubAck p => .PubAck { p with properties := normProps PubAckProperties.toList p.properties }
  | .PubRec p => .PubRec { p with properties := normProps PubRecProperties.toList p.properties }
  | .PubRel p => .PubRel { p with properties := normProps PubRelProperties.toList p.properties }
  | .PubComp p => .PubComp { p with properties := normProps PubCompProperties.toList p.properties }
  | .Subscribe p =>
    .Subscribe { p with properties := normProps SubscribeProperties.toList p.properties }
  | .SubAck p => .SubAck { p with properties := normProps SubAckProperties.toList p.properties }
  | .Unsubscribe p =>
    .Unsubscribe { p with properties := normProps UnsubscribeProperties.toList p.properties }
  | .UnsubAck p =>
    .UnsubAck { p with properties := normProps UnsubAckProperties.toList p.properties }
  | .PingReq => .PingReq
  | .PingResp => .PingResp
  | .Disconnect p =>
    .Disconnect { p with properties := normProps DisconnectProperties.toList p.properties }

/-- The library's own limits on what it reads back: it refuses empty lists in SUBSCRIBE, SUBACK
and UNSUBACK (as MQTT 5 does), and its miscount of subscription identifiers must do no harm
(always so with at most one of them; see `DriftSafe`). -/
def Readable : Packet → Prop
  | .Publish p => DriftSafe (optList PublishProperties.toList p.properties)
  | .Subscribe p => p.filters ≠ []
  | .SubAck p => p.return_codes ≠ []
  | .UnsubAck p => p.reasons ≠ []
  | _ => True

end Spec
