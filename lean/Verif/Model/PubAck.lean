import Verif.Model.Basic
/-
Model of /repo/src/puback.rs.
-/
namespace Mqtt

/-- src/puback.rs:11-21. -/
inductive PubAckReason
  | Success
  | NoMatchingSubscribers
  | UnspecifiedError
  | ImplementationSpecificError
  | NotAuthorized
  | TopicNameInvalid
  | PacketIdentifierInUse
  | QuotaExceeded
  | PayloadFormatInvalid
  deriving DecidableEq, Repr

/-- src/puback.rs:130-133. -/
structure PubAckProperties where
  reason_string : Option MqttString
  user_properties : List (MqttString × MqttString)
  deriving DecidableEq, Repr

/-- src/puback.rs:25-29. -/
structure PubAck where
  pkid : UInt16
  reason : PubAckReason
  properties : Option PubAckProperties
  deriving DecidableEq, Repr

/-- src/puback.rs:33-39 `PubAck::new`. -/
def PubAck.new (pkid : UInt16) (properties : Option PubAckProperties) : PubAck :=
  { pkid := pkid, reason := .Success, properties := properties }

namespace PubAckProperties

/-- src/puback.rs:136-148 `PubAckProperties::len`. -/
def len (p : PubAckProperties) : Nat :=
  optStrLen p.reason_string + userPropsLen p.user_properties

/-- src/puback.rs:151-152, the locals before the loop. -/
def init : PubAckProperties := { reason_string := none, user_properties := [] }

/-- src/puback.rs:166-179, the `match` in the loop. -/
def step (mode : StrMode) (prop : UInt8) (ty : PropertyType) (s : PubAckProperties)
    (cursor : Nat) : M (PubAckProperties × Nat) :=
  match ty with
  | .ReasonString => do
    let reason ← read_mqtt_string mode
    let cursor := cursor + (2 + reason.length)
    pure ({ s with reason_string := some reason }, cursor)
  | .UserProperty => do
    let key ← read_mqtt_string mode
    let value ← read_mqtt_string mode
    let cursor := cursor + (2 + key.length + 2 + value.length)
    pure ({ s with user_properties := s.user_properties ++ [(key, value)] }, cursor)
  | _ => throwE (.InvalidPropertyType prop)

/-- src/puback.rs:150-186 `PubAckProperties::read`. -/
def read (mode : StrMode) : M (Option PubAckProperties) := readProps (step mode) init

/-- src/puback.rs:188-204 `PubAckProperties::write`. -/
def write (p : PubAckProperties) : M Unit := do
  let len := p.len
  let _ ← write_remaining_length len
  writeOptStr .ReasonString p.reason_string
  writeUserProps p.user_properties

end PubAckProperties

/-- src/puback.rs:208-223 `fn reason`. -/
def PubAckReason.ofU8 (num : UInt8) : Out PubAckReason :=
  match num.toNat with
  | 0 => .ok .Success
  | 16 => .ok .NoMatchingSubscribers
  | 128 => .ok .UnspecifiedError
  | 131 => .ok .ImplementationSpecificError
  | 135 => .ok .NotAuthorized
  | 144 => .ok .TopicNameInvalid
  | 145 => .ok .PacketIdentifierInUse
  | 151 => .ok .QuotaExceeded
  | 153 => .ok .PayloadFormatInvalid
  | _ => .err (.InvalidConnectReturnCode num)

/-- src/puback.rs:226-238 `fn code`. -/
def PubAckReason.code : PubAckReason → UInt8
  | .Success => 0
  | .NoMatchingSubscribers => 16
  | .UnspecifiedError => 128
  | .ImplementationSpecificError => 131
  | .NotAuthorized => 135
  | .TopicNameInvalid => 144
  | .PacketIdentifierInUse => 145
  | .QuotaExceeded => 151
  | .PayloadFormatInvalid => 153

namespace PubAck

/-- src/puback.rs:52-70 `PubAck::len`. -/
def len (p : PubAck) : Nat :=
  if p.reason = .Success ∧ p.properties = none then 2
  else 2 + 1 + optPropsLen PubAckProperties.len p.properties

/-- src/puback.rs:42-50 `PubAck::size`. -/
def size (p : PubAck) : Nat :=
  if p.reason = .Success ∧ p.properties = none then 4
  else
    let len := p.len
    let remaining_len_size := len_len len
    1 + remaining_len_size + len

/-- src/puback.rs:72-104 `PubAck::read`. -/
def read (mode : StrMode) (fixed_header : FixedHeader) : M PubAck := do
  advance fixed_header.fixed_header_len
  let pkid ← read_u16
  if fixed_header.remaining_len = 2 then
    pure { pkid := pkid, reason := .Success, properties := none }
  else do
    let ack_reason ← read_u8
    if fixed_header.remaining_len < 4 then do
      let reason ← liftOut (PubAckReason.ofU8 ack_reason)
      pure { pkid := pkid, reason := reason, properties := none }
    else do
      let properties ← PubAckProperties.read mode
      let reason ← liftOut (PubAckReason.ofU8 ack_reason)
      pure { pkid := pkid, reason := reason, properties := properties }

/-- src/puback.rs:106-126 `PubAck::write`. -/
def write (p : PubAck) : M Nat := do
  let len := p.len
  putU8 0x40
  let count ← write_remaining_length len
  putU16 p.pkid
  if p.reason = .Success ∧ p.properties = none then pure 4
  else do
    putU8 p.reason.code
    writeOptProps PubAckProperties.write p.properties
    pure (1 + count + len)

end PubAck

end Mqtt
