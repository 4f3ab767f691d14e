import Verif.Model.Usize
import Verif.Model.Packet
/-
The whole of `Packet::read` with the overflow checks of a target whose `usize` has `w` bits: the
readers of the packets with `checkW`, `lengthMW` and `readPropsW` in place of the unbounded
functions. The readers themselves do no other arithmetic on `usize`.
-/
namespace Mqtt

/-- src/publish.rs:203-244, the `match` of `PublishProperties::read`. -/
def PublishProperties.stepW (w : Nat) (mode : StrMode) (prop : UInt8) (ty : PropertyType)
    (s : PublishProperties) (cursor : Nat) : M (PublishProperties × Nat) :=
  match ty with
  | .SubscriptionIdentifier => do
    let (id_len, id) ← lengthMW w
    let add ← liftOut (addW w 1 id_len)
    let cursor ← liftOut (addW w cursor add)
    advance id_len
    pure ({ s with subscription_identifiers := s.subscription_identifiers ++ [id] }, cursor)
  | ty => PublishProperties.step mode prop ty s cursor

/-- src/subscribe.rs:241-256, the `match` of `SubscribeProperties::read`. -/
def SubscribeProperties.stepW (w : Nat) (mode : StrMode) (prop : UInt8) (ty : PropertyType)
    (s : SubscribeProperties) (cursor : Nat) : M (SubscribeProperties × Nat) :=
  match ty with
  | .SubscriptionIdentifier => do
    let (id_len, sub_id) ← lengthMW w
    let add ← liftOut (addW w 1 id_len)
    let cursor ← liftOut (addW w cursor add)
    advance id_len
    pure ({ s with id := some sub_id }, cursor)
  | ty => SubscribeProperties.step mode prop ty s cursor

/-- src/connect.rs:383-408 `LastWill::read`. -/
def LastWill.readW (w : Nat) (mode : StrMode) (connect_flags : UInt8) : M (Option LastWill) :=
  if connect_flags &&& 0b100 = 0 then
    if connect_flags &&& 0b00111000 ≠ 0 then throwE .IncorrectPacketFormat
    else pure none
  else do
    let properties ← readPropsW w (LastWillProperties.step mode) LastWillProperties.init
    let will_topic ← read_mqtt_bytes
    let will_message ← read_mqtt_bytes
    let qos_num := (connect_flags &&& 0b11000) >>> 3
    let will_qos ← qosOrErr qos_num
    pure (some { topic := will_topic, message := will_message, qos := will_qos,
                 retain := (connect_flags &&& 0b00100000) != 0, properties := properties })

/-- src/connect.rs:24-60 `Connect::read`. -/
def Connect.readW (w : Nat) (mode : StrMode) (fixed_header : FixedHeader) :
    M (Connect × Option LastWill × Option Login) := do
  advance fixed_header.fixed_header_len
  let protocol_name ← read_mqtt_string mode
  let protocol_level ← read_u8
  if protocol_name ≠ protocolName then throwE .InvalidProtocol
  else if protocol_level ≠ 5 then throwE (.InvalidProtocolLevel protocol_level)
  else do
    let connect_flags ← read_u8
    let clean_start : Bool := (connect_flags &&& 0b10) != 0
    let keep_alive ← read_u16
    let properties ← readPropsW w (ConnectProperties.step mode) ConnectProperties.init
    let client_id ← read_mqtt_string mode
    let will ← LastWill.readW w mode connect_flags
    let login ← Login.read mode connect_flags
    pure ({ keep_alive := keep_alive, client_id := client_id, clean_start := clean_start,
            properties := properties }, will, login)

/-- src/connack.rs:72-89 `ConnAck::read`. -/
def ConnAck.readW (w : Nat) (mode : StrMode) (fixed_header : FixedHeader) : M ConnAck := do
  advance fixed_header.fixed_header_len
  let flags ← read_u8
  let return_code ← read_u8
  let properties ← readPropsW w (ConnAckProperties.step mode) ConnAckProperties.init
  let session_present : Bool := (flags &&& 0x01) == 1
  let code ← liftOut (ConnectReturnCode.ofU8 return_code)
  pure { session_present := session_present, code := code, properties := properties }

/-- src/publish.rs:64-96 `Publish::read`. -/
def Publish.readW (w : Nat) (mode : StrMode) (fixed_header : FixedHeader) : M Publish := do
  let qos_num := (fixed_header.byte1 &&& 0b0110) >>> 1
  let qos ← qosOrErr qos_num
  let dup : Bool := (fixed_header.byte1 &&& 0b1000) != 0
  let retain : Bool := (fixed_header.byte1 &&& 0b0001) != 0
  advance fixed_header.fixed_header_len
  let topic ← read_mqtt_string mode
  let pkid ←
    (match qos with
    | .AtMostOnce => pure 0
    | .AtLeastOnce | .ExactlyOnce => read_u16)
  if qos ≠ .AtMostOnce ∧ pkid = 0 then throwE .PacketIdZero
  else do
    let properties ← readPropsW w (PublishProperties.stepW w mode) PublishProperties.init
    let bytes ← getBuf
    pure { dup := dup, retain := retain, qos := qos, pkid := pkid, topic := topic,
           payload := bytes, properties := properties }

/-- src/puback.rs:72-104 `PubAck::read`. -/
def PubAck.readW (w : Nat) (mode : StrMode) (fixed_header : FixedHeader) : M PubAck := do
  advance fixed_header.fixed_header_len
  let pkid ← read_u16
  if fixed_header.remaining_len = 2 then
    pure { pkid := pkid, reason := .Success, properties := none }
  else do
    let ack_reason ← read_u8
    if fixed_header.remaining_len < 4 then do
      let reason ← liftOut (PubAckReason.ofU8 ack_reason)
      pure { pkid := pkid, reason := reason, properties := none }
    else do
      let properties ← readPropsW w (PubAckProperties.step mode) PubAckProperties.init
      let reason ← liftOut (PubAckReason.ofU8 ack_reason)
      pure { pkid := pkid, reason := reason, properties := properties }

/-- src/pubrec.rs:71-99 `PubRec::read`. -/
def PubRec.readW (w : Nat) (mode : StrMode) (fixed_header : FixedHeader) : M PubRec := do
  advance fixed_header.fixed_header_len
  let pkid ← read_u16
  if fixed_header.remaining_len = 2 then
    pure { pkid := pkid, reason := .Success, properties := none }
  else do
    let ack_reason ← read_u8
    if fixed_header.remaining_len < 4 then do
      let reason ← liftOut (PubRecReason.ofU8 ack_reason)
      pure { pkid := pkid, reason := reason, properties := none }
    else do
      let properties ← readPropsW w (PubRecProperties.step mode) PubRecProperties.init
      let reason ← liftOut (PubRecReason.ofU8 ack_reason)
      pure { pkid := pkid, reason := reason, properties := properties }

/-- src/pubrel.rs:69-98 `PubRel::read`. -/
def PubRel.readW (w : Nat) (mode : StrMode) (fixed_header : FixedHeader) : M PubRel := do
  advance fixed_header.fixed_header_len
  let pkid ← read_u16
  if fixed_header.remaining_len = 2 then
    pure { pkid := pkid, reason := .Success, properties := none }
  else do
    let ack_reason ← read_u8
    if fixed_header.remaining_len < 4 then do
      let reason ← liftOut (PubRelReason.ofU8 ack_reason)
      pure { pkid := pkid, reason := reason, properties := none }
    else do
      let properties ← readPropsW w (PubRelProperties.step mode) PubRelProperties.init
      let reason ← liftOut (PubRelReason.ofU8 ack_reason)
      pure { pkid := pkid, reason := reason, properties := properties }

/-- src/pubcomp.rs:67-97 `PubComp::read`. -/
def PubComp.readW (w : Nat) (mode : StrMode) (fixed_header : FixedHeader) : M PubComp := do
  advance fixed_header.fixed_header_len
  let pkid ← read_u16
  if fixed_header.remaining_len = 2 then
    pure { pkid := pkid, reason := .Success, properties := none }
  else do
    let ack_reason ← read_u8
    if fixed_header.remaining_len < 4 then do
      let reason ← liftOut (PubCompReason.ofU8 ack_reason)
      pure { pkid := pkid, reason := reason, properties := none }
    else do
      let properties ← readPropsW w (PubCompProperties.step mode) PubCompProperties.init
      let reason ← liftOut (PubCompReason.ofU8 ack_reason)
      pure { pkid := pkid, reason := reason, properties := properties }

/-- src/subscribe.rs:61-79 `Subscribe::read`. -/
def Subscribe.readW (w : Nat) (mode : StrMode) (fixed_header : FixedHeader) : M Subscribe := do
  advance fixed_header.fixed_header_len
  let pkid ← read_u16
  let properties ← readPropsW w (SubscribeProperties.stepW w mode) SubscribeProperties.init
  let bytes ← getBuf
  let filters ← Filter.readLoop mode (bytes.length + 1) []
  match filters.length with
  | 0 => throwE .EmptySubscription
  | _ => pure { pkid := pkid, filters := filters, properties := properties }

/-- src/suback.rs:41-65 `SubAck::read`. -/
def SubAck.readW (w : Nat) (mode : StrMode) (fixed_header : FixedHeader) : M SubAck := do
  advance fixed_header.fixed_header_len
  let pkid ← read_u16
  let properties ← readPropsW w (SubAckProperties.step mode) SubAckProperties.init
  let bytes ← getBuf
  if bytes.isEmpty then throwE .MalformedPacket
  else do
    let codes ← SubAck.readLoop (bytes.length + 1) []
    pure { pkid := pkid, return_codes := codes, properties := properties }

/-- src/unsubscribe.rs:51-70 `Unsubscribe::read`. -/
def Unsubscribe.readW (w : Nat) (mode : StrMode) (fixed_header : FixedHeader) : M Unsubscribe := do
  advance fixed_header.fixed_header_len
  let pkid ← read_u16
  let properties ← readPropsW w (UnsubscribeProperties.step mode) UnsubscribeProperties.init
  let bytes ← getBuf
  let filters ← Unsubscribe.readLoop mode (bytes.length + 1) []
  pure { pkid := pkid, filters := filters, properties := properties }

/-- src/unsuback.rs:41-65 `UnsubAck::read`. -/
def UnsubAck.readW (w : Nat) (mode : StrMode) (fixed_header : FixedHeader) : M UnsubAck := do
  advance fixed_header.fixed_header_len
  let pkid ← read_u16
  let properties ← readPropsW w (UnsubAckProperties.step mode) UnsubAckProperties.init
  let bytes ← getBuf
  if bytes.isEmpty then throwE .MalformedPacket
  else do
    let codes ← UnsubAck.readLoop (bytes.length + 1) []
    pure { pkid := pkid, reasons := codes, properties := properties }

/-- src/disconnect.rs:293-319 `Disconnect::read`. -/
def Disconnect.readW (w : Nat) (mode : StrMode) (fixed_header : FixedHeader) : M Disconnect := do
  let packet_type := fixed_header.byte1 >>> 4
  let flags := fixed_header.byte1 &&& 0b00001111
  advance fixed_header.fixed_header_len
  if packet_type ≠ PacketType.Disconnect.toU8 then throwE (.InvalidPacketType packet_type)
  else if flags ≠ 0x00 then throwE .MalformedPacket
  else if fixed_header.remaining_len = 0 then pure (Disconnect.new .NormalDisconnection)
  else do
    let reason_code ← read_u8
    let reason_code ← liftOut (DisconnectReasonCode.ofU8 reason_code)
    let properties ← readPropsW w (DisconnectProperties.step mode) DisconnectProperties.init
    pure { reason_code := reason_code, properties := properties }

namespace Packet

/-- src/lib.rs:162-213, decoding of one complete frame. -/
def readBodyW (w : Nat) (mode : StrMode) (fixed_header : FixedHeader) (packet_type : PacketType)
    (packet : Bytes) : M Packet :=
  match packet_type with
  | .Connect => do
    let (connect, will, login) ← onOwned packet (Mqtt.Connect.readW w mode fixed_header)
    pure (.Connect connect will login)
  | .Publish => do
    let p ← onOwned packet (Mqtt.Publish.readW w mode fixed_header)
    pure (.Publish p)
  | .Subscribe => do
    let p ← onOwned packet (Mqtt.Subscribe.readW w mode fixed_header)
    pure (.Subscribe p)
  | .Unsubscribe => do
    let p ← onOwned packet (Mqtt.Unsubscribe.readW w mode fixed_header)
    pure (.Unsubscribe p)
  | .ConnAck => do
    let p ← onOwned packet (Mqtt.ConnAck.readW w mode fixed_header)
    pure (.ConnAck p)
  | .PubAck => do
    let p ← onOwned packet (Mqtt.PubAck.readW w mode fixed_header)
    pure (.PubAck p)
  | .PubRec => do
    let p ← onOwned packet (Mqtt.PubRec.readW w mode fixed_header)
    pure (.PubRec p)
  | .PubRel => do
    let p ← onOwned packet (Mqtt.PubRel.readW w mode fixed_header)
    pure (.PubRel p)
  | .PubComp => do
    let p ← onOwned packet (Mqtt.PubComp.readW w mode fixed_header)
    pure (.PubComp p)
  | .SubAck => do
    let p ← onOwned packet (Mqtt.SubAck.readW w mode fixed_header)
    pure (.SubAck p)
  | .UnsubAck => do
    let p ← onOwned packet (Mqtt.UnsubAck.readW w mode fixed_header)
    pure (.UnsubAck p)
  | .PingReq => pure .PingReq
  | .PingResp => pure .PingResp
  | .Disconnect => do
    let p ← onOwned packet (Mqtt.Disconnect.readW w mode fixed_header)
    pure (.Disconnect p)

/-- src/lib.rs:146-216 `Packet::read`. -/
def readW (w : Nat) (mode : StrMode) (max_size : Option Nat) : M Packet := do
  let stream ← getBuf
  let fixed_header ← liftOut (checkW w stream max_size)
  let packet ← splitTo fixed_header.frame_length
  let packet_type ← liftOut fixed_header.packet_type
  if fixed_header.remaining_len = 0 ∧ packet_type ≠ .Disconnect then
    match packet_type with
    | .PingReq => pure .PingReq
    | .PingResp => pure .PingResp
    | _ => throwE .PayloadRequired
  else readBodyW w mode fixed_header packet_type packet

end Packet

end Mqtt
