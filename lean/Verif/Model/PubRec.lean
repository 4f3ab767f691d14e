import Verif.Model.Basic
/-
Model of /repo/src/pubrec.rs.
-/
namespace Mqtt

/-- src/pubrec.rs:12-22. -/
inductive PubRecReason
  | Success
  | NoMatchingSubscribers
  | UnspecifiedError
  | ImplementationSpecificError
  | NotAuthorized
  | TopicNameInvalid
  | PacketIdentifierInUse
  | QuotaExceeded
  | PayloadFormatInvalid
  deriving DecidableEq, Repr

/-- src/pubrec.rs:125-128. -/
structure PubRecProperties where
  reason_string : Option MqttString
  user_properties : List (MqttString × MqttString)
  deriving DecidableEq, Repr

/-- src/pubrec.rs:26-30. -/
structure PubRec where
  pkid : UInt16
  reason : PubRecReason
  properties : Option PubRecProperties
  deriving DecidableEq, Repr

/-- src/pubrec.rs:34-40 `PubRec::new`. -/
def PubRec.new (pkid : UInt16) (properties : Option PubRecProperties) : PubRec :=
  { pkid := pkid, reason := .Success, properties := properties }

namespace PubRecProperties

/-- src/pubrec.rs:131-143 `PubRecProperties::len`. -/
def len (p : PubRecProperties) : Nat :=
  optStrLen p.reason_string + userPropsLen p.user_properties

/-- src/pubrec.rs:146-147, the locals before the loop. -/
def init : PubRecProperties := { reason_string := none, user_properties := [] }

/-- src/pubrec.rs:161-174, the `match` in the loop. -/
def step (mode : StrMode) (prop : UInt8) (ty : PropertyType) (s : PubRecProperties)
    (cursor : Nat) : M (PubRecProperties × Nat) :=
  match ty with
  | .ReasonString => do
    let reason ← read_mqtt_string mode
    let cursor := cursor + (2 + reason.length)
    pure ({ s with reason_string := some reason }, cursor)
  | .UserProperty => do
    let key ← read_mqtt_string mode
    let value ← read_mqtt_string mode
    let cursor := cursor + (2 + key.length + 2 + value.length)
    pure ({ s with user_properties := s.user_properties ++ [(key, value)] }, cursor)
  | _ => throwE (.InvalidPropertyType prop)

/-- src/pubrec.rs:145-181 `PubRecProperties::read`. -/
def read (mode : StrMode) : M (Option PubRecProperties) := readProps (step mode) init

/-- src/pubrec.rs:183-199 `PubRecProperties::write`. -/
def write (p : PubRecProperties) : M Unit := do
  let len := p.len
  let _ ← write_remaining_length len
  writeOptStr .ReasonString p.reason_string
  writeUserProps p.user_properties

end PubRecProperties

/-- src/pubrec.rs:203-218 `fn reason`. -/
def PubRecReason.ofU8 (num : UInt8) : Out PubRecReason :=
  match num.toNat with
  | 0 => .ok .Success
  | 16 => .ok .NoMatchingSubscribers
  | 128 => .ok .UnspecifiedError
  | 131 => .ok .ImplementationSpecificError
  | 135 => .ok .NotAuthorized
  | 144 => .ok .TopicNameInvalid
  | 145 => .ok .PacketIdentifierInUse
  | 151 => .ok .QuotaExceeded
  | 153 => .ok .PayloadFormatInvalid
  | _ => .err (.InvalidConnectReturnCode num)

/-- src/pubrec.rs:220-232 `fn code`. -/
def PubRecReason.code : PubRecReason → UInt8
  | .Success => 0
  | .NoMatchingSubscribers => 16
  | .UnspecifiedError => 128
  | .ImplementationSpecificError => 131
  | .NotAuthorized => 135
  | .TopicNameInvalid => 144
  | .PacketIdentifierInUse => 145
  | .QuotaExceeded => 151
  | .PayloadFormatInvalid => 153

namespace PubRec

/-- src/pubrec.rs:50-69 `PubRec::len`. -/
def len (p : PubRec) : Nat :=
  if p.reason = .Success ∧ p.properties = none then 2
  else 2 + 1 + optPropsLen PubRecProperties.len p.properties

/-- src/pubrec.rs:43-48 `PubRec::size`. -/
def size (p : PubRec) : Nat :=
  let len := p.len
  let remaining_len_size := len_len len
  1 + remaining_len_size + len

/-- src/pubrec.rs:71-99 `PubRec::read`. -/
def read (mode : StrMode) (fixed_header : FixedHeader) : M PubRec := do
  advance fixed_header.fixed_header_len
  let pkid ← read_u16
  if fixed_header.remaining_len = 2 then
    pure { pkid := pkid, reason := .Success, properties := none }
  else do
    let ack_reason ← read_u8
    if fixed_header.remaining_len < 4 then do
      let reason ← liftOut (PubRecReason.ofU8 ack_reason)
      pure { pkid := pkid, reason := reason, properties := none }
    else do
      let properties ← PubRecProperties.read mode
      let reason ← liftOut (PubRecReason.ofU8 ack_reason)
      pure { pkid := pkid, reason := reason, properties := properties }

/-- src/pubrec.rs:101-121 `PubRec::write`. -/
def write (p : PubRec) : M Nat := do
  let len := p.len
  putU8 0x50
  let count ← write_remaining_length len
  putU16 p.pkid
  if p.reason = .Success ∧ p.properties = none then pure 4
  else do
    putU8 p.reason.code
    writeOptProps PubRecProperties.write p.properties
    pure (1 + count + len)

end PubRec

end Mqtt
