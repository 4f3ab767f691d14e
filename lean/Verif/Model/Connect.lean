import Verif.Model.Basic
/-
Model of /repo/src/connect.rs.
-/
namespace Mqtt

/-- src/connect.rs:139-156. -/
structure ConnectProperties where
  session_expiry_interval : Option UInt32
  receive_maximum : Option UInt16
  max_packet_size : Option UInt32
  topic_alias_max : Option UInt16
  request_response_info : Option UInt8
  request_problem_info : Option UInt8
  user_properties : List (MqttString × MqttString)
  authentication_method : Option MqttString
  authentication_data : Option Bytes
  deriving DecidableEq, Repr

/-- src/connect.rs:12-20. -/
structure Connect where
  keep_alive : UInt16
  client_id : MqttString
  clean_start : Bool
  properties : Option ConnectProperties
  deriving DecidableEq, Repr

/-- src/connect.rs:431-439. -/
structure LastWillProperties where
  delay_interval : Option UInt32
  payload_format_indicator : Option UInt8
  message_expiry_interval : Option UInt32
  content_type : Option MqttString
  response_topic : Option MqttString
  correlation_data : Option Bytes
  user_properties : List (MqttString × MqttString)
  deriving DecidableEq, Repr

/-- src/connect.rs:358-364. -/
structure LastWill where
  topic : Bytes
  message : Bytes
  qos : QoS
  retain : Bool
  properties : Option LastWillProperties
  deriving DecidableEq, Repr

/-- src/connect.rs:590-593. -/
structure Login where
  username : MqttString
  password : MqttString
  deriving DecidableEq, Repr

namespace ConnectProperties

/-- src/connect.rs:160-172 `ConnectProperties::new`, and the locals of src/connect.rs:175-183. -/
def init : ConnectProperties :=
  { session_expiry_interval := none, receive_maximum := none, max_packet_size := none,
    topic_alias_max := none, request_response_info := none, request_problem_info := none,
    user_properties := [], authentication_method := none, authentication_data := none }

/-- src/connect.rs:196-238, the `match` in the loop. -/
def step (mode : StrMode) (prop : UInt8) (ty : PropertyType) (s : ConnectProperties)
    (cursor : Nat) : M (ConnectProperties × Nat) :=
  match ty with
  | .SessionExpiryInterval => do
    let v ← read_u32
    pure ({ s with session_expiry_interval := some v }, cursor + 4)
  | .ReceiveMaximum => do
    let v ← read_u16
    pure ({ s with receive_maximum := some v }, cursor + 2)
  | .MaximumPacketSize => do
    let v ← read_u32
    pure ({ s with max_packet_size := some v }, cursor + 4)
  | .TopicAliasMaximum => do
    let v ← read_u16
    pure ({ s with topic_alias_max := some v }, cursor + 2)
  | .RequestResponseInformation => do
    let v ← read_u8
    pure ({ s with request_response_info := some v }, cursor + 1)
  | .RequestProblemInformation => do
    let v ← read_u8
    pure ({ s with request_problem_info := some v }, cursor + 1)
  | .UserProperty => do
    let key ← read_mqtt_string mode
    let value ← read_mqtt_string mode
    let cursor := cursor + (2 + key.length + 2 + value.length)
    pure ({ s with user_properties := s.user_properties ++ [(key, value)] }, cursor)
  | .AuthenticationMethod => do
    let method ← read_mqtt_string mode
    let cursor := cursor + (2 + method.length)
    pure ({ s with authentication_method := some method }, cursor)
  | .AuthenticationData => do
    let data ← read_mqtt_bytes
    let cursor := cursor + (2 + data.length)
    pure ({ s with authentication_data := some data }, cursor)
  | _ => throwE (.InvalidPropertyType prop)

/-- src/connect.rs:174-252 `ConnectProperties::read`. -/
def read (mode : StrMode) : M (Option ConnectProperties) := readProps (step mode) init

/-- src/connect.rs:254-294 `ConnectProperties::len`. -/
def len (p : ConnectProperties) : Nat :=
  optLen p.session_expiry_interval 4
  + optLen p.receive_maximum 2
  + optLen p.max_packet_size 4
  + optLen p.topic_alias_max 2
  + optLen p.request_response_info 1
  + optLen p.request_problem_info 1
  + userPropsLen p.user_properties
  + optStrLen p.authentication_method
  + optStrLen p.authentication_data

/-- src/connect.rs:296-347 `ConnectProperties::write`. -/
def write (p : ConnectProperties) : M Unit := do
  let len := p.len
  let _ ← write_remaining_length len
  writeOptU32 .SessionExpiryInterval p.session_expiry_interval
  writeOptU16 .ReceiveMaximum p.receive_maximum
  writeOptU32 .MaximumPacketSize p.max_packet_size
  writeOptU16 .TopicAliasMaximum p.topic_alias_max
  writeOptU8 .RequestResponseInformation p.request_response_info
  writeOptU8 .RequestProblemInformation p.request_problem_info
  writeUserProps p.user_properties
  writeOptStr .AuthenticationMethod p.authentication_method
  writeOptStr .AuthenticationData p.authentication_data

end ConnectProperties

namespace LastWillProperties

/-- src/connect.rs:442-474 `LastWillProperties::len`. -/
def len (p : LastWillProperties) : Nat :=
  optLen p.delay_interval 4
  + optLen p.payload_format_indicator 1
  + optLen p.message_expiry_interval 4
  + optStrLen p.content_type
  + optStrLen p.response_topic
  + optStrLen p.correlation_data
  + userPropsLen p.user_properties

/-- src/connect.rs:477-483, the locals before the loop. -/
def init : LastWillProperties :=
  { delay_interval := none, payload_format_indicator := none, message_expiry_interval := none,
    content_type := none, response_topic := none, correlation_data := none,
    user_properties := [] }

/-- src/connect.rs:497-532, the `match` in the loop. -/
def step (mode : StrMode) (prop : UInt8) (ty : PropertyType) (s : LastWillProperties)
    (cursor : Nat) : M (LastWillProperties × Nat) :=
  match ty with
  | .WillDelayInterval => do
    let v ← read_u32
    pure ({ s with delay_interval := some v }, cursor + 4)
  | .PayloadFormatIndicator => do
    let v ← read_u8
    pure ({ s with payload_format_indicator := some v }, cursor + 1)
  | .MessageExpiryInterval => do
    let v ← read_u32
    pure ({ s with message_expiry_interval := some v }, cursor + 4)
  | .ContentType => do
    let typ ← read_mqtt_string mode
    let cursor := cursor + (2 + typ.length)
    pure ({ s with content_type := some typ }, cursor)
  | .ResponseTopic => do
    let topic ← read_mqtt_string mode
    let cursor := cursor + (2 + topic.length)
    pure ({ s with response_topic := some topic }, cursor)
  | .CorrelationData => do
    let data ← read_mqtt_bytes
    let cursor := cursor + (2 + data.length)
    pure ({ s with correlation_data := some data }, cursor)
  | .UserProperty => do
    let key ← read_mqtt_string mode
    let value ← read_mqtt_string mode
    let cursor := cursor + (2 + key.length + 2 + value.length)
    pure ({ s with user_properties := s.user_properties ++ [(key, value)] }, cursor)
  | _ => throwE (.InvalidPropertyType prop)

/-- src/connect.rs:476-544 `LastWillProperties::read`. -/
def read (mode : StrMode) : M (Option LastWillProperties) := readProps (step mode) init

/-- src/connect.rs:546-587 `LastWillProperties::write`. -/
def write (p : LastWillProperties) : M Unit := do
  let len := p.len
  let _ ← write_remaining_length len
  writeOptU32 .WillDelayInterval p.delay_interval
  writeOptU8 .PayloadFormatIndicator p.payload_format_indicator
  writeOptU32 .MessageExpiryInterval p.message_expiry_interval
  writeOptStr .ContentType p.content_type
  writeOptStr .ResponseTopic p.response_topic
  writeOptStr .CorrelationData p.correlation_data
  writeUserProps p.user_properties

end LastWillProperties

namespace LastWill

/-- src/connect.rs:367-381 `LastWill::len`. -/
def len (w : LastWill) : Nat :=
  optPropsLen LastWillProperties.len w.properties + (2 + w.topic.length + 2 + w.message.length)

/-- src/connect.rs:383-408 `LastWill::read`. -/
def read (mode : StrMode) (connect_flags : UInt8) : M (Option LastWill) :=
  if connect_flags &&& 0b100 = 0 then
    if connect_flags &&& 0b00111000 ≠ 0 then throwE .IncorrectPacketFormat
    else pure none
  else do
    let properties ← LastWillProperties.read mode
    let will_topic ← read_mqtt_bytes
    let will_message ← read_mqtt_bytes
    let qos_num := (connect_flags &&& 0b11000) >>> 3
    let will_qos ← qosOrErr qos_num
    pure (some { topic := will_topic, message := will_message, qos := will_qos,
                 retain := (connect_flags &&& 0b00100000) != 0, properties := properties })

/-- src/connect.rs:410-427 `LastWill::write`; returns the flag bits. -/
def write (w : LastWill) : M UInt8 := do
  let connect_flags : UInt8 := 0
  let connect_flags := connect_flags ||| ((0x04 : UInt8) ||| (w.qos.toU8 <<< 3))
  let connect_flags := if w.retain then connect_flags ||| 0x20 else connect_flags
  writeOptProps LastWillProperties.write w.properties
  write_mqtt_bytes w.topic
  write_mqtt_bytes w.message
  pure connect_flags

end LastWill

namespace Login

/-- src/connect.rs:603-619 `Login::read`. -/
def read (mode : StrMode) (connect_flags : UInt8) : M (Option Login) := do
  let username ← (if connect_flags &&& 0b10000000 = 0 then pure [] else read_mqtt_string mode)
  let password ← (if connect_flags &&& 0b01000000 = 0 then pure [] else read_mqtt_string mode)
  if username.isEmpty && password.isEmpty then pure none
  else pure (some { username := username, password := password })

/-- src/connect.rs:621-633 `Login::len`. -/
def len (l : Login) : Nat :=
  (if l.username.isEmpty then 0 else 2 + l.username.length)
  + (if l.password.isEmpty then 0 else 2 + l.password.length)

/-- src/connect.rs:635-648 `Login::write`; returns the flag bits. -/
def write (l : Login) : M UInt8 := do
  let connect_flags : UInt8 := 0
  let connect_flags ←
    (if l.username.isEmpty then pure connect_flags
     else do
      write_mqtt_string l.username
      pure (connect_flags ||| 0x80))
  if l.password.isEmpty then pure connect_flags
  else do
    write_mqtt_string l.password
    pure (connect_flags ||| 0x40)

end Login

namespace Connect

/-- The literal `"MQTT"`, src/connect.rs:34 and 102. -/
def protocolName : Bytes := [0x4D, 0x51, 0x54, 0x54]

/-- src/connect.rs:24-60 `Connect::read` (`mqtt_string_eq`, src/lib.rs:72-92, is equality of
bytes in every feature variant). -/
def read (mode : StrMode) (fixed_header : FixedHeader) :
    M (Connect × Option LastWill × Option Login) := do
  advance fixed_header.fixed_header_len
  let protocol_name ← read_mqtt_string mode
  let protocol_level ← read_u8
  if protocol_name ≠ protocolName then throwE .InvalidProtocol
  else if protocol_level ≠ 5 then throwE (.InvalidProtocolLevel protocol_level)
  else do
    let connect_flags ← read_u8
    let clean_start : Bool := (connect_flags &&& 0b10) != 0
    let keep_alive ← read_u16
    let properties ← ConnectProperties.read mode
    let client_id ← read_mqtt_string mode
    let will ← LastWill.read mode connect_flags
    let login ← Login.read mode connect_flags
    pure ({ keep_alive := keep_alive, client_id := client_id, clean_start := clean_start,
            properties := properties }, will, login)

/-- src/connect.rs:62-90 `Connect::len`. -/
def len (c : Connect) (will : Option LastWill) (l : Option Login) : Nat :=
  2 + protocolName.length + 1 + 1 + 2
  + optPropsLen ConnectProperties.len c.properties
  + (2 + c.client_id.length)
  + (match will with
    | some w => w.len
    | none => 0)
  + (match l with
    | some l => l.len
    | none => 0)

/-- src/connect.rs:92-135 `Connect::write`; `flags_index` is relative to the start of the
buffer, as in the code. -/
def write (c : Connect) (will : Option LastWill) (l : Option Login) : M Nat := do
  let len := c.len will l
  putU8 0b00010000
  let count ← write_remaining_length len
  write_mqtt_string protocolName
  putU8 0x05
  let flags_index := 1 + count + 2 + 4 + 1
  let connect_flags : UInt8 := 0
  let connect_flags := if c.clean_start then connect_flags ||| 0x02 else connect_flags
  putU8 connect_flags
  putU16 c.keep_alive
  writeOptProps ConnectProperties.write c.properties
  write_mqtt_string c.client_id
  let connect_flags ←
    (match will with
    | some w => do
      let f ← w.write
      pure (connect_flags ||| f)
    | none => pure connect_flags)
  let connect_flags ←
    (match l with
    | some l => do
      let f ← l.write
      pure (connect_flags ||| f)
    | none => pure connect_flags)
  setIndex flags_index connect_flags
  pure (1 + count + len)

end Connect

end Mqtt
