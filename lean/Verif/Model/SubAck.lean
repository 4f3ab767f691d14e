import Verif.Model.Basic
/-
Model of /repo/src/suback.rs.
-/
namespace Mqtt

/-- src/suback.rs:88-99. -/
inductive SubscribeReasonCode
  | Success (qos : QoS)
  | Unspecified
  | ImplementationSpecific
  | NotAuthorized
  | TopicFilterInvalid
  | PkidInUse
  | QuotaExceeded
  | SharedSubscriptionsNotSupported
  | SubscriptionIdNotSupported
  | WildcardSubscriptionsNotSupported
  deriving DecidableEq, Repr

/-- src/suback.rs:102-105. -/
structure SubAckProperties where
  reason_string : Option MqttString
  user_properties : List (MqttString × MqttString)
  deriving DecidableEq, Repr

/-- src/suback.rs:11-15. -/
structure SubAck where
  pkid : UInt16
  return_codes : List SubscribeReasonCode
  properties : Option SubAckProperties
  deriving DecidableEq, Repr

namespace SubAckProperties

/-- src/suback.rs:108-120 `SubAckProperties::len`. -/
def len (p : SubAckProperties) : Nat :=
  optStrLen p.reason_string + userPropsLen p.user_properties

/-- src/suback.rs:123-124, the locals before the loop. -/
def init : SubAckProperties := { reason_string := none, user_properties := [] }

/-- src/suback.rs:138-151, the `match` in the loop. -/
def step (mode : StrMode) (prop : UInt8) (ty : PropertyType) (s : SubAckProperties)
    (cursor : Nat) : M (SubAckProperties × Nat) :=
  match ty with
  | .ReasonString => do
    let reason ← read_mqtt_string mode
    let cursor := cursor + (2 + reason.length)
    pure ({ s with reason_string := some reason }, cursor)
  | .UserProperty => do
    let key ← read_mqtt_string mode
    let value ← read_mqtt_string mode
    let cursor := cursor + (2 + key.length + 2 + value.length)
    pure ({ s with user_properties := s.user_properties ++ [(key, value)] }, cursor)
  | _ => throwE (.InvalidPropertyType prop)

/-- src/suback.rs:122-158 `SubAckProperties::read`. -/
def read (mode : StrMode) : M (Option SubAckProperties) := readProps (step mode) init

/-- src/suback.rs:160-176 `SubAckProperties::write`. -/
def write (p : SubAckProperties) : M Unit := do
  let len := p.len
  let _ ← write_remaining_length len
  writeOptStr .ReasonString p.reason_string
  writeUserProps p.user_properties

end SubAckProperties

/-- src/suback.rs:179-197 `fn reason`. -/
def SubscribeReasonCode.ofU8 (num : UInt8) : Out SubscribeReasonCode :=
  match num.toNat with
  | 0 => .ok (.Success .AtMostOnce)
  | 1 => .ok (.Success .AtLeastOnce)
  | 2 => .ok (.Success .ExactlyOnce)
  | 128 => .ok .Unspecified
  | 131 => .ok .ImplementationSpecific
  | 135 => .ok .NotAuthorized
  | 143 => .ok .TopicFilterInvalid
  | 145 => .ok .PkidInUse
  | 151 => .ok .QuotaExceeded
  | 158 => .ok .SharedSubscriptionsNotSupported
  | 161 => .ok .SubscriptionIdNotSupported
  | 162 => .ok .WildcardSubscriptionsNotSupported
  | _ => .err (.InvalidSubscribeReasonCode num)

/-- src/suback.rs:199-212 `fn code`. -/
def SubscribeReasonCode.code : SubscribeReasonCode → UInt8
  | .Success qos => qos.toU8
  | .Unspecified => 128
  | .ImplementationSpecific => 131
  | .NotAuthorized => 135
  | .TopicFilterInvalid => 143
  | .PkidInUse => 145
  | .QuotaExceeded => 151
  | .SharedSubscriptionsNotSupported => 158
  | .SubscriptionIdNotSupported => 161
  | .WildcardSubscriptionsNotSupported => 162

namespace SubAck

/-- src/suback.rs:18-31 `SubAck::len`. -/
def len (p : SubAck) : Nat :=
  2 + p.return_codes.length + optPropsLen SubAckProperties.len p.properties

/-- src/suback.rs:34-39 `SubAck::size`. -/
def size (p : SubAck) : Nat :=
  let len := p.len
  let remaining_len_size := len_len len
  1 + remaining_len_size + len

/-- src/suback.rs:53-56, the `while bytes.has_remaining()` loop; the first argument is fuel. -/
def readLoop : (fuel : Nat) → List SubscribeReasonCode → M (List SubscribeReasonCode)
  | 0, _ => fun b => (.diverge, b)
  | fuel + 1, acc => do
    let bytes ← getBuf
    if bytes.isEmpty then pure acc
    else do
      let c ← read_u8
      let r ← liftOut (SubscribeReasonCode.ofU8 c)
      readLoop fuel (acc ++ [r])

/-- src/suback.rs:41-65 `SubAck::read`. -/
def read (mode : StrMode) (fixed_header : FixedHeader) : M SubAck := do
  advance fixed_header.fixed_header_len
  let pkid ← read_u16
  let properties ← SubAckProperties.read mode
  let bytes ← getBuf
  if bytes.isEmpty then throwE .MalformedPacket
  else do
    let codes ← readLoop (bytes.length + 1) []
    pure { pkid := pkid, return_codes := codes, properties := properties }

/-- src/suback.rs:67-84 `SubAck::write`. -/
def write (p : SubAck) : M Nat := do
  putU8 0x90
  let remaining_len := p.len
  let remaining_len_bytes ← write_remaining_length remaining_len
  putU16 p.pkid
  writeOptProps SubAckProperties.write p.properties
  putBytes (p.return_codes.map SubscribeReasonCode.code)
  pure (1 + remaining_len_bytes + remaining_len)

end SubAck

end Mqtt
