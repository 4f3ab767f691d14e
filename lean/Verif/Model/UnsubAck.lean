import Verif.Model.Basic
/-
Model of /repo/src/unsuback.rs.
-/
namespace Mqtt

/-- src/unsuback.rs:88-96. -/
inductive UnsubAckReason
  | Success
  | NoSubscriptionExisted
  | UnspecifiedError
  | ImplementationSpecificError
  | NotAuthorized
  | TopicFilterInvalid
  | PacketIdentifierInUse
  deriving DecidableEq, Repr

/-- src/unsuback.rs:99-102. -/
structure UnsubAckProperties where
  reason_string : Option MqttString
  user_properties : List (MqttString × MqttString)
  deriving DecidableEq, Repr

/-- src/unsuback.rs:11-15. -/
structure UnsubAck where
  pkid : UInt16
  reasons : List UnsubAckReason
  properties : Option UnsubAckProperties
  deriving DecidableEq, Repr

namespace UnsubAckProperties

/-- src/unsuback.rs:105-117 `UnsubAckProperties::len`. -/
def len (p : UnsubAckProperties) : Nat :=
  optStrLen p.reason_string + userPropsLen p.user_properties

/-- src/unsuback.rs:120-121, the locals before the loop. -/
def init : UnsubAckProperties := { reason_string := none, user_properties := [] }

/-- src/unsuback.rs:135-148, the `match` in the loop. -/
def step (mode : StrMode) (prop : UInt8) (ty : PropertyType) (s : UnsubAckProperties)
    (cursor : Nat) : M (UnsubAckProperties × Nat) :=
  match ty with
  | .ReasonString => do
    let reason ← read_mqtt_string mode
    let cursor := cursor + (2 + reason.length)
    pure ({ s with reason_string := some reason }, cursor)
  | .UserProperty => do
    let key ← read_mqtt_string mode
    let value ← read_mqtt_string mode
    let cursor := cursor + (2 + key.length + 2 + value.length)
    pure ({ s with user_properties := s.user_properties ++ [(key, value)] }, cursor)
  | _ => throwE (.InvalidPropertyType prop)

/-- src/unsuback.rs:119-155 `UnsubAckProperties::read`. -/
def read (mode : StrMode) : M (Option UnsubAckProperties) := readProps (step mode) init

/-- src/unsuback.rs:157-173 `UnsubAckProperties::write`. -/
def write (p : UnsubAckProperties) : M Unit := do
  let len := p.len
  let _ ← write_remaining_length len
  writeOptStr .ReasonString p.reason_string
  writeUserProps p.user_properties

end UnsubAckProperties

/-- src/unsuback.rs:177-190 `fn reason`. -/
def UnsubAckReason.ofU8 (num : UInt8) : Out UnsubAckReason :=
  match num.toNat with
  | 0x00 => .ok .Success
  | 0x11 => .ok .NoSubscriptionExisted
  | 0x80 => .ok .UnspecifiedError
  | 0x83 => .ok .ImplementationSpecificError
  | 0x87 => .ok .NotAuthorized
  | 0x8F => .ok .TopicFilterInvalid
  | 0x91 => .ok .PacketIdentifierInUse
  | _ => .err (.InvalidSubscribeReasonCode num)

/-- src/unsuback.rs:192-202 `fn code`. -/
def UnsubAckReason.code : UnsubAckReason → UInt8
  | .Success => 0x00
  | .NoSubscriptionExisted => 0x11
  | .UnspecifiedError => 0x80
  | .ImplementationSpecificError => 0x83
  | .NotAuthorized => 0x87
  | .TopicFilterInvalid => 0x8F
  | .PacketIdentifierInUse => 0x91

namespace UnsubAck

/-- src/unsuback.rs:18-31 `UnsubAck::len`. -/
def len (p : UnsubAck) : Nat :=
  2 + p.reasons.length + optPropsLen UnsubAckProperties.len p.properties

/-- src/unsuback.rs:34-39 `UnsubAck::size`. -/
def size (p : UnsubAck) : Nat :=
  let len := p.len
  let remaining_len_size := len_len len
  1 + remaining_len_size + len

/-- src/unsuback.rs:53-56, the `while bytes.has_remaining()` loop; the first argument is fuel. -/
def readLoop : (fuel : Nat) → List UnsubAckReason → M (List UnsubAckReason)
  | 0, _ => fun b => (.diverge, b)
  | fuel + 1, acc => do
    let bytes ← getBuf
    if bytes.isEmpty then pure acc
    else do
      let c ← read_u8
      let r ← liftOut (UnsubAckReason.ofU8 c)
      readLoop fuel (acc ++ [r])

/-- src/unsuback.rs:41-65 `UnsubAck::read`. -/
def read (mode : StrMode) (fixed_header : FixedHeader) : M UnsubAck := do
  advance fixed_header.fixed_header_len
  let pkid ← read_u16
  let properties ← UnsubAckProperties.read mode
  let bytes ← getBuf
  if bytes.isEmpty then throwE .MalformedPacket
  else do
    let codes ← readLoop (bytes.length + 1) []
    pure { pkid := pkid, reasons := codes, properties := properties }

/-- src/unsuback.rs:67-83 `UnsubAck::write`. -/
def write (p : UnsubAck) : M Nat := do
  putU8 0xB0
  let remaining_len := p.len
  let remaining_len_bytes ← write_remaining_length remaining_len
  putU16 p.pkid
  writeOptProps UnsubAckProperties.write p.properties
  putBytes (p.reasons.map UnsubAckReason.code)
  pure (1 + remaining_len_bytes + remaining_len)

end UnsubAck

end Mqtt
