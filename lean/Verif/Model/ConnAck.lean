import Verif.Model.Basic
/-
Model of /repo/src/connack.rs.
-/
namespace Mqtt

/-- src/connack.rs:13-39. -/
inductive ConnectReturnCode
  | Success
  | RefusedProtocolVersion
  | BadClientId
  | ServiceUnavailable
  | UnspecifiedError
  | MalformedPacket
  | ProtocolError
  | ImplementationSpecificError
  | UnsupportedProtocolVersion
  | ClientIdentifierNotValid
  | BadUserNamePassword
  | NotAuthorized
  | ServerUnavailable
  | ServerBusy
  | Banned
  | BadAuthenticationMethod
  | TopicNameInvalid
  | PacketTooLarge
  | QuotaExceeded
  | PayloadFormatInvalid
  | RetainNotSupported
  | QoSNotSupported
  | UseAnotherServer
  | ServerMoved
  | ConnectionRateExceeded
  deriving DecidableEq, Repr

/-- src/connack.rs:110-128. -/
structure ConnAckProperties where
  session_expiry_interval : Option UInt32
  receive_max : Option UInt16
  max_qos : Option UInt8
  retain_available : Option UInt8
  max_packet_size : Option UInt32
  assigned_client_identifier : Option MqttString
  topic_alias_max : Option UInt16
  reason_string : Option MqttString
  user_properties : List (MqttString × MqttString)
  wildcard_subscription_available : Option UInt8
  subscription_identifiers_available : Option UInt8
  shared_subscription_available : Option UInt8
  server_keep_alive : Option UInt16
  response_information : Option MqttString
  server_reference : Option MqttString
  authentication_method : Option MqttString
  authentication_data : Option Bytes
  deriving DecidableEq, Repr

/-- src/connack.rs:43-47. -/
structure ConnAck where
  session_present : Bool
  code : ConnectReturnCode
  properties : Option ConnAckProperties
  deriving DecidableEq, Repr

/-- src/connack.rs:439-467 `connect_return`. -/
def ConnectReturnCode.ofU8 (num : UInt8) : Out ConnectReturnCode :=
  match num.toNat with
  | 0 => .ok .Success
  | 128 => .ok .UnspecifiedError
  | 129 => .ok .MalformedPacket
  | 130 => .ok .ProtocolError
  | 131 => .ok .ImplementationSpecificError
  | 132 => .ok .UnsupportedProtocolVersion
  | 133 => .ok .ClientIdentifierNotValid
  | 134 => .ok .BadUserNamePassword
  | 135 => .ok .NotAuthorized
  | 136 => .ok .ServerUnavailable
  | 137 => .ok .ServerBusy
  | 138 => .ok .Banned
  | 140 => .ok .BadAuthenticationMethod
  | 144 => .ok .TopicNameInvalid
  | 149 => .ok .PacketTooLarge
  | 151 => .ok .QuotaExceeded
  | 153 => .ok .PayloadFormatInvalid
  | 154 => .ok .RetainNotSupported
  | 155 => .ok .QoSNotSupported
  | 156 => .ok .UseAnotherServer
  | 157 => .ok .ServerMoved
  | 159 => .ok .ConnectionRateExceeded
  | _ => .err (.InvalidConnectReturnCode num)

/-- src/connack.rs:469-495 `connect_code`; the catch-all arm is `unreachable!()`, a panic. -/
def ConnectReturnCode.code : ConnectReturnCode → Out UInt8
  | .Success => .ok 0
  | .UnspecifiedError => .ok 128
  | .MalformedPacket => .ok 129
  | .ProtocolError => .ok 130
  | .ImplementationSpecificError => .ok 131
  | .UnsupportedProtocolVersion => .ok 132
  | .ClientIdentifierNotValid => .ok 133
  | .BadUserNamePassword => .ok 134
  | .NotAuthorized => .ok 135
  | .ServerUnavailable => .ok 136
  | .ServerBusy => .ok 137
  | .Banned => .ok 138
  | .BadAuthenticationMethod => .ok 140
  | .TopicNameInvalid => .ok 144
  | .PacketTooLarge => .ok 149
  | .QuotaExceeded => .ok 151
  | .PayloadFormatInvalid => .ok 153
  | .RetainNotSupported => .ok 154
  | .QoSNotSupported => .ok 155
  | .UseAnotherServer => .ok 156
  | .ServerMoved => .ok 157
  | .ConnectionRateExceeded => .ok 159
  | _ => .panic

namespace ConnAckProperties

/-- src/connack.rs:136-208 `ConnAckProperties::len`. -/
def len (p : ConnAckProperties) : Nat :=
  optLen p.session_expiry_interval 4
  + optLen p.receive_max 2
  + optLen p.max_qos 1
  + optLen p.retain_available 1
  + optLen p.max_packet_size 4
  + optStrLen p.assigned_client_identifier
  + optLen p.topic_alias_max 2
  + optStrLen p.reason_string
  + userPropsLen p.user_properties
  + optLen p.wildcard_subscription_available 1
  + optLen p.subscription_identifiers_available 1
  + optLen p.shared_subscription_available 1
  + optLen p.server_keep_alive 2
  + optStrLen p.response_information
  + optStrLen p.server_reference
  + optStrLen p.authentication_method
  + optStrLen p.authentication_data

/-- src/connack.rs:212-228, the locals before the loop; also `ConnAckProperties::new`
(src/connack.rs:132-134, derived `Default`). -/
def init : ConnAckProperties :=
  { session_expiry_interval := none, receive_max := none, max_qos := none,
    retain_available := none, max_packet_size := none, assigned_client_identifier := none,
    topic_alias_max := none, reason_string := none, user_properties := [],
    wildcard_subscription_available := none, subscription_identifiers_available := none,
    shared_subscription_available := none, server_keep_alive := none,
    response_information := none, server_reference := none, authentication_method := none,
    authentication_data := none }

/-- src/connack.rs:242-320, the `match` in the loop. -/
def step (mode : StrMode) (prop : UInt8) (ty : PropertyType) (s : ConnAckProperties)
    (cursor : Nat) : M (ConnAckProperties × Nat) :=
  match ty with
  | .SessionExpiryInterval => do
    let v ← read_u32
    pure ({ s with session_expiry_interval := some v }, cursor + 4)
  | .ReceiveMaximum => do
    let v ← read_u16
    pure ({ s with receive_max := some v }, cursor + 2)
  | .MaximumQos => do
    let v ← read_u8
    pure ({ s with max_qos := some v }, cursor + 1)
  | .RetainAvailable => do
    let v ← read_u8
    pure ({ s with retain_available := some v }, cursor + 1)
  | .AssignedClientIdentifier => do
    let id ← read_mqtt_string mode
    let cursor := cursor + (2 + id.length)
    pure ({ s with assigned_client_identifier := some id }, cursor)
  | .MaximumPacketSize => do
    let v ← read_u32
    pure ({ s with max_packet_size := some v }, cursor + 4)
  | .TopicAliasMaximum => do
    let v ← read_u16
    pure ({ s with topic_alias_max := some v }, cursor + 2)
  | .ReasonString => do
    let reason ← read_mqtt_string mode
    let cursor := cursor + (2 + reason.length)
    pure ({ s with reason_string := some reason }, cursor)
  | .UserProperty => do
    let key ← read_mqtt_string mode
    let value ← read_mqtt_string mode
    let cursor := cursor + (2 + key.length + 2 + value.length)
    pure ({ s with user_properties := s.user_properties ++ [(key, value)] }, cursor)
  | .WildcardSubscriptionAvailable => do
    let v ← read_u8
    pure ({ s with wildcard_subscription_available := some v }, cursor + 1)
  | .SubscriptionIdentifierAvailable => do
    let v ← read_u8
    pure ({ s with subscription_identifiers_available := some v }, cursor + 1)
  | .SharedSubscriptionAvailable => do
    let v ← read_u8
    pure ({ s with shared_subscription_available := some v }, cursor + 1)
  | .ServerKeepAlive => do
    let v ← read_u16
    pure ({ s with server_keep_alive := some v }, cursor + 2)
  | .ResponseInformation => do
    let info ← read_mqtt_string mode
    let cursor := cursor + (2 + info.length)
    pure ({ s with response_information := some info }, cursor)
  | .ServerReference => do
    let reference ← read_mqtt_string mode
    let cursor := cursor + (2 + reference.length)
    pure ({ s with server_reference := some reference }, cursor)
  | .AuthenticationMethod => do
    let method ← read_mqtt_string mode
    let cursor := cursor + (2 + method.length)
    pure ({ s with authentication_method := some method }, cursor)
  | .AuthenticationData => do
    let data ← read_mqtt_bytes
    let cursor := cursor + (2 + data.length)
    pure ({ s with authentication_data := some data }, cursor)
  | _ => throwE (.InvalidPropertyType prop)

/-- src/connack.rs:211-342 `ConnAckProperties::read`. -/
def read (mode : StrMode) : M (Option ConnAckProperties) := readProps (step mode) init

/-- src/connack.rs:344-435 `ConnAckProperties::write`. -/
def write (p : ConnAckProperties) : M Unit := do
  let len := p.len
  let _ ← write_remaining_length len
  writeOptU32 .SessionExpiryInterval p.session_expiry_interval
  writeOptU16 .ReceiveMaximum p.receive_max
  writeOptU8 .MaximumQos p.max_qos
  writeOptU8 .RetainAvailable p.retain_available
  writeOptU32 .MaximumPacketSize p.max_packet_size
  writeOptStr .AssignedClientIdentifier p.assigned_client_identifier
  writeOptU16 .TopicAliasMaximum p.topic_alias_max
  writeOptStr .ReasonString p.reason_string
  writeUserProps p.user_properties
  writeOptU8 .WildcardSubscriptionAvailable p.wildcard_subscription_available
  writeOptU8 .SubscriptionIdentifierAvailable p.subscription_identifiers_available
  writeOptU8 .SharedSubscriptionAvailable p.shared_subscription_available
  writeOptU16 .ServerKeepAlive p.server_keep_alive
  writeOptStr .ResponseInformation p.response_information
  writeOptStr .ServerReference p.server_reference
  writeOptStr .AuthenticationMethod p.authentication_method
  writeOptStr .AuthenticationData p.authentication_data

end ConnAckProperties

namespace ConnAck

/-- src/connack.rs:50-63 `ConnAck::len`. -/
def len (p : ConnAck) : Nat := 1 + 1 + optPropsLen ConnAckProperties.len p.properties

/-- src/connack.rs:65-70 `ConnAck::size`. -/
def size (p : ConnAck) : Nat :=
  let len := p.len
  let remaining_len_size := len_len len
  1 + remaining_len_size + len

/-- src/connack.rs:72-89 `ConnAck::read`. -/
def read (mode : StrMode) (fixed_header : FixedHeader) : M ConnAck := do
  advance fixed_header.fixed_header_len
  let flags ← read_u8
  let return_code ← read_u8
  let properties ← ConnAckProperties.read mode
  let session_present : Bool := (flags &&& 0x01) == 1
  let code ← liftOut (ConnectReturnCode.ofU8 return_code)
  pure { session_present := session_present, code := code, properties := properties }

/-- src/connack.rs:91-106 `ConnAck::write`. -/
def write (p : ConnAck) : M Nat := do
  let len := p.len
  putU8 0x20
  let count ← write_remaining_length len
  putU8 (boolU8 p.session_present)
  let code ← liftOut p.code.code
  putU8 code
  writeOptProps ConnAckProperties.write p.properties
  pure (1 + count + len)

end ConnAck

end Mqtt
