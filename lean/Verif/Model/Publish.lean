import Verif.Model.Basic
/-
Model of /repo/src/publish.rs.
-/
namespace Mqtt

/-- src/publish.rs:131-140. -/
structure PublishProperties where
  payload_format_indicator : Option UInt8
  message_expiry_interval : Option UInt32
  topic_alias : Option UInt16
  response_topic : Option MqttString
  correlation_data : Option Bytes
  user_properties : List (MqttString × MqttString)
  subscription_identifiers : List Nat
  content_type : Option MqttString
  deriving DecidableEq, Repr

/-- src/publish.rs:12-20. -/
structure Publish where
  dup : Bool
  qos : QoS
  retain : Bool
  topic : MqttString
  pkid : UInt16
  payload : Bytes
  properties : Option PublishProperties
  deriving DecidableEq, Repr

/-- src/publish.rs:23-36 `Publish::new`. -/
def Publish.new (topic : MqttString) (qos : QoS) (payload : Bytes)
    (properties : Option PublishProperties) : Publish :=
  { dup := false, qos := qos, retain := false, topic := topic, pkid := 0, payload := payload,
    properties := properties }

namespace PublishProperties

/-- src/publish.rs:170-172, the loop over the subscription identifiers: the amount added. -/
def subIdsLen (ids : List Nat) : Nat := ids.foldl (fun len id => len + (1 + len_len id)) 0

/-- src/publish.rs:143-179 `PublishProperties::len`. -/
def len (p : PublishProperties) : Nat :=
  optLen p.payload_format_indicator 1
  + optLen p.message_expiry_interval 4
  + optLen p.topic_alias 2
  + optStrLen p.response_topic
  + optStrLen p.correlation_data
  + userPropsLen p.user_properties
  + subIdsLen p.subscription_identifiers
  + optStrLen p.content_type

/-- src/publish.rs:182-189, the locals before the loop. -/
def init : PublishProperties :=
  { payload_format_indicator := none, message_expiry_interval := none, topic_alias := none,
    response_topic := none, correlation_data := none, user_properties := [],
    subscription_identifiers := [], content_type := none }

/-- src/publish.rs:203-244, the `match` in the loop (the extra `1 +` for the subscription
identifier is in the code). -/
def step (mode : StrMode) (prop : UInt8) (ty : PropertyType) (s : PublishProperties)
    (cursor : Nat) : M (PublishProperties × Nat) :=
  match ty with
  | .PayloadFormatIndicator => do
    let v ← read_u8
    pure ({ s with payload_format_indicator := some v }, cursor + 1)
  | .MessageExpiryInterval => do
    let v ← read_u32
    pure ({ s with message_expiry_interval := some v }, cursor + 4)
  | .TopicAlias => do
    let v ← read_u16
    pure ({ s with topic_alias := some v }, cursor + 2)
  | .ResponseTopic => do
    let topic ← read_mqtt_string mode
    let cursor := cursor + (2 + topic.length)
    pure ({ s with response_topic := some topic }, cursor)
  | .CorrelationData => do
    let data ← read_mqtt_bytes
    let cursor := cursor + (2 + data.length)
    pure ({ s with correlation_data := some data }, cursor)
  | .UserProperty => do
    let key ← read_mqtt_string mode
    let value ← read_mqtt_string mode
    let cursor := cursor + (2 + key.length + 2 + value.length)
    pure ({ s with user_properties := s.user_properties ++ [(key, value)] }, cursor)
  | .SubscriptionIdentifier => do
    let (id_len, id) ← lengthM
    let cursor := cursor + (1 + id_len)
    advance id_len
    pure ({ s with subscription_identifiers := s.subscription_identifiers ++ [id] }, cursor)
  | .ContentType => do
    let typ ← read_mqtt_string mode
    let cursor := cursor + (2 + typ.length)
    pure ({ s with content_type := some typ }, cursor)
  | _ => throwE (.InvalidPropertyType prop)

/-- src/publish.rs:181-257 `PublishProperties::read`. -/
def read (mode : StrMode) : M (Option PublishProperties) := readProps (step mode) init

/-- src/publish.rs:294-297, the loop over the subscription identifiers. -/
def writeSubIds : List Nat → M Unit
  | [] => pure ()
  | id :: ids => do
    putU8 PropertyType.SubscriptionIdentifier.toU8
    let _ ← write_remaining_length id
    writeSubIds ids

/-- src/publish.rs:259-305 `PublishProperties::write`. -/
def write (p : PublishProperties) : M Unit := do
  let len := p.len
  let _ ← write_remaining_length len
  writeOptU8 .PayloadFormatIndicator p.payload_format_indicator
  writeOptU32 .MessageExpiryInterval p.message_expiry_interval
  writeOptU16 .TopicAlias p.topic_alias
  writeOptStr .ResponseTopic p.response_topic
  writeOptStr .CorrelationData p.correlation_data
  writeUserProps p.user_properties
  writeSubIds p.subscription_identifiers
  writeOptStr .ContentType p.content_type

end PublishProperties

namespace Publish

/-- src/publish.rs:45-62 `Publish::len`. -/
def len (p : Publish) : Nat :=
  2 + p.topic.length
  + (if p.qos ≠ .AtMostOnce ∧ p.pkid ≠ 0 then 2 else 0)
  + optPropsLen PublishProperties.len p.properties
  + p.payload.length

/-- src/publish.rs:38-43 `Publish::size`. -/
def size (p : Publish) : Nat :=
  let len := p.len
  let remaining_len_size := len_len len
  1 + remaining_len_size + len

/-- src/publish.rs:64-96 `Publish::read`. -/
def read (mode : StrMode) (fixed_header : FixedHeader) : M Publish := do
  let qos_num := (fixed_header.byte1 &&& 0b0110) >>> 1
  let qos ← qosOrErr qos_num
  let dup : Bool := (fixed_header.byte1 &&& 0b1000) != 0
  let retain : Bool := (fixed_header.byte1 &&& 0b0001) != 0
  advance fixed_header.fixed_header_len
  let topic ← read_mqtt_string mode
  let pkid ←
    match qos with
    | .AtMostOnce => pure 0
    | .AtLeastOnce | .ExactlyOnce => read_u16
  if qos ≠ .AtMostOnce ∧ pkid = 0 then throwE .PacketIdZero
  else do
    let properties ← PublishProperties.read mode
    let bytes ← getBuf
    pure { dup := dup, retain := retain, qos := qos, pkid := pkid, topic := topic,
           payload := bytes, properties := properties }

/-- src/publish.rs:98-127 `Publish::write`. -/
def write (p : Publish) : M Nat := do
  let len := p.len
  let dup := boolU8 p.dup
  let qos := p.qos.toU8
  let retain := boolU8 p.retain
  putU8 ((0b00110000 : UInt8) ||| retain ||| (qos <<< 1) ||| (dup <<< 3))
  let count ← write_remaining_length len
  write_mqtt_string p.topic
  if p.qos ≠ .AtMostOnce then
    (if p.pkid = 0 then throwE .PacketIdZero else putU16 p.pkid)
  else pure ()
  writeOptProps PublishProperties.write p.properties
  putBytes p.payload
  pure (1 + count + len)

end Publish

end Mqtt
