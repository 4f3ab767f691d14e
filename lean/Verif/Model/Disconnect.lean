import Verif.Model.Basic
/-
Model of /repo/src/disconnect.rs.
-/
namespace Mqtt

/-- src/disconnect.rs:16-75. -/
inductive DisconnectReasonCode
  | NormalDisconnection
  | DisconnectWithWillMessage
  | UnspecifiedError
  | MalformedPacket
  | ProtocolError
  | ImplementationSpecificError
  | NotAuthorized
  | ServerBusy
  | ServerShuttingDown
  | KeepAliveTimeout
  | SessionTakenOver
  | TopicFilterInvalid
  | TopicNameInvalid
  | ReceiveMaximumExceeded
  | TopicAliasInvalid
  | PacketTooLarge
  | MessageRateTooHigh
  | QuotaExceeded
  | AdministrativeAction
  | PayloadFormatInvalid
  | RetainNotSupported
  | QoSNotSupported
  | UseAnotherServer
  | ServerMoved
  | SharedSubscriptionNotSupported
  | ConnectionRateExceeded
  | MaximumConnectTime
  | SubscriptionIdentifiersNotSupported
  | WildcardSubscriptionsNotSupported
  deriving DecidableEq, Repr

/-- `reason_code as u8`, the discriminants of src/disconnect.rs:16-75. -/
def DisconnectReasonCode.code : DisconnectReasonCode → UInt8
  | .NormalDisconnection => 0x00
  | .DisconnectWithWillMessage => 0x04
  | .UnspecifiedError => 0x80
  | .MalformedPacket => 0x81
  | .ProtocolError => 0x82
  | .ImplementationSpecificError => 0x83
  | .NotAuthorized => 0x87
  | .ServerBusy => 0x89
  | .ServerShuttingDown => 0x8B
  | .KeepAliveTimeout => 0x8D
  | .SessionTakenOver => 0x8E
  | .TopicFilterInvalid => 0x8F
  | .TopicNameInvalid => 0x90
  | .ReceiveMaximumExceeded => 0x93
  | .TopicAliasInvalid => 0x94
  | .PacketTooLarge => 0x95
  | .MessageRateTooHigh => 0x96
  | .QuotaExceeded => 0x97
  | .AdministrativeAction => 0x98
  | .PayloadFormatInvalid => 0x99
  | .RetainNotSupported => 0x9A
  | .QoSNotSupported => 0x9B
  | .UseAnotherServer => 0x9C
  | .ServerMoved => 0x9D
  | .SharedSubscriptionNotSupported => 0x9E
  | .ConnectionRateExceeded => 0x9F
  | .MaximumConnectTime => 0xA0
  | .SubscriptionIdentifiersNotSupported => 0xA1
  | .WildcardSubscriptionsNotSupported => 0xA2

/-- src/disconnect.rs:80-115 `TryFrom<u8> for DisconnectReasonCode`. -/
def DisconnectReasonCode.ofU8 (num : UInt8) : Out DisconnectReasonCode :=
  match num.toNat with
  | 0x00 => .ok .NormalDisconnection
  | 0x04 => .ok .DisconnectWithWillMessage
  | 0x80 => .ok .UnspecifiedError
  | 0x81 => .ok .MalformedPacket
  | 0x82 => .ok .ProtocolError
  | 0x83 => .ok .ImplementationSpecificError
  | 0x87 => .ok .NotAuthorized
  | 0x89 => .ok .ServerBusy
  | 0x8B => .ok .ServerShuttingDown
  | 0x8D => .ok .KeepAliveTimeout
  | 0x8E => .ok .SessionTakenOver
  | 0x8F => .ok .TopicFilterInvalid
  | 0x90 => .ok .TopicNameInvalid
  | 0x93 => .ok .ReceiveMaximumExceeded
  | 0x94 => .ok .TopicAliasInvalid
  | 0x95 => .ok .PacketTooLarge
  | 0x96 => .ok .MessageRateTooHigh
  | 0x97 => .ok .QuotaExceeded
  | 0x98 => .ok .AdministrativeAction
  | 0x99 => .ok .PayloadFormatInvalid
  | 0x9A => .ok .RetainNotSupported
  | 0x9B => .ok .QoSNotSupported
  | 0x9C => .ok .UseAnotherServer
  | 0x9D => .ok .ServerMoved
  | 0x9E => .ok .SharedSubscriptionNotSupported
  | 0x9F => .ok .ConnectionRateExceeded
  | 0xA0 => .ok .MaximumConnectTime
  | 0xA1 => .ok .SubscriptionIdentifiersNotSupported
  | 0xA2 => .ok .WildcardSubscriptionsNotSupported
  | _ => .err (.InvalidConnectReturnCode num)

/-- src/disconnect.rs:119-131. -/
structure DisconnectProperties where
  session_expiry_interval : Option UInt32
  reason_string : Option MqttString
  user_properties : List (MqttString × MqttString)
  server_reference : Option MqttString
  deriving DecidableEq, Repr

/-- src/disconnect.rs:134-140. -/
structure Disconnect where
  reason_code : DisconnectReasonCode
  properties : Option DisconnectProperties
  deriving DecidableEq, Repr

/-- src/disconnect.rs:252-257 `Disconnect::new`. -/
def Disconnect.new (reason : DisconnectReasonCode) : Disconnect :=
  { reason_code := reason, properties := none }

namespace DisconnectProperties

/-- src/disconnect.rs:143-163 `DisconnectProperties::len`. -/
def len (p : DisconnectProperties) : Nat :=
  optLen p.session_expiry_interval 4
  + optStrLen p.reason_string
  + userPropsLen p.user_properties
  + optStrLen p.server_reference

/-- src/disconnect.rs:174-177, the locals before the loop. -/
def init : DisconnectProperties :=
  { session_expiry_interval := none, reason_string := none, user_properties := [],
    server_reference := none }

/-- src/disconnect.rs:186-208, the `match` in the loop. -/
def step (mode : StrMode) (prop : UInt8) (ty : PropertyType) (s : DisconnectProperties)
    (cursor : Nat) : M (DisconnectProperties × Nat) :=
  match ty with
  | .SessionExpiryInterval => do
    let v ← read_u32
    pure ({ s with session_expiry_interval := some v }, cursor + 4)
  | .ReasonString => do
    let reason ← read_mqtt_string mode
    let cursor := cursor + (2 + reason.length)
    pure ({ s with reason_string := some reason }, cursor)
  | .UserProperty => do
    let key ← read_mqtt_string mode
    let value ← read_mqtt_string mode
    let cursor := cursor + (2 + key.length + 2 + value.length)
    pure ({ s with user_properties := s.user_properties ++ [(key, value)] }, cursor)
  | .ServerReference => do
    let reference ← read_mqtt_string mode
    let cursor := cursor + (2 + reference.length)
    pure ({ s with server_reference := some reference }, cursor)
  | _ => throwE (.InvalidPropertyType prop)

/-- src/disconnect.rs:165-219 `DisconnectProperties::extract`. -/
def extract (mode : StrMode) : M (Option DisconnectProperties) := readProps (step mode) init

/-- src/disconnect.rs:221-247 `DisconnectProperties::write`. -/
def write (p : DisconnectProperties) : M Unit := do
  let length := p.len
  let _ ← write_remaining_length length
  writeOptU32 .SessionExpiryInterval p.session_expiry_interval
  writeOptStr .ReasonString p.reason_string
  writeUserProps p.user_properties
  writeOptStr .ServerReference p.server_reference

end DisconnectProperties

namespace Disconnect

/-- src/disconnect.rs:259-279 `Disconnect::len`. -/
def len (d : Disconnect) : Nat :=
  if d.reason_code = .NormalDisconnection ∧ d.properties = none then 2
  else
    match d.properties with
    | some properties => 1 + (len_len properties.len + properties.len)
    | none => 1

/-- src/disconnect.rs:282-291 `Disconnect::size`. -/
def size (d : Disconnect) : Nat :=
  let len := d.len
  if len = 2 then len
  else
    let remaining_len_size := len_len len
    1 + remaining_len_size + len

/-- src/disconnect.rs:293-319 `Disconnect::read`. -/
def read (mode : StrMode) (fixed_header : FixedHeader) : M Disconnect := do
  let packet_type := fixed_header.byte1 >>> 4
  let flags := fixed_header.byte1 &&& 0b00001111
  advance fixed_header.fixed_header_len
  if packet_type ≠ PacketType.Disconnect.toU8 then throwE (.InvalidPacketType packet_type)
  else if flags ≠ 0x00 then throwE .MalformedPacket
  else if fixed_header.remaining_len = 0 then pure (Disconnect.new .NormalDisconnection)
  else do
    let reason_code ← read_u8
    let reason_code ← liftOut (DisconnectReasonCode.ofU8 reason_code)
    let properties ← DisconnectProperties.extract mode
    pure { reason_code := reason_code, properties := properties }

/-- src/disconnect.rs:321-342 `Disconnect::write`. -/
def write (d : Disconnect) : M Nat := do
  putU8 0xE0
  let length := d.len
  if length = 2 then do
    putU8 0x00
    pure length
  else do
    let len_len ← write_remaining_length length
    putU8 d.reason_code.code
    writeOptProps DisconnectProperties.write d.properties
    pure (1 + len_len + length)

end Disconnect

end Mqtt
