import Verif.Model.Basic
/-
Model of /repo/src/pubrel.rs.
-/
namespace Mqtt

/-- src/pubrel.rs:12-15. -/
inductive PubRelReason
  | Success
  | PacketIdentifierNotFound
  deriving DecidableEq, Repr

/-- src/pubrel.rs:124-127. -/
structure PubRelProperties where
  reason_string : Option MqttString
  user_properties : List (MqttString × MqttString)
  deriving DecidableEq, Repr

/-- src/pubrel.rs:19-23. -/
structure PubRel where
  pkid : UInt16
  reason : PubRelReason
  properties : Option PubRelProperties
  deriving DecidableEq, Repr

/-- src/pubrel.rs:27-33 `PubRel::new`. -/
def PubRel.new (pkid : UInt16) (properties : Option PubRelProperties) : PubRel :=
  { pkid := pkid, reason := .Success, properties := properties }

namespace PubRelProperties

/-- src/pubrel.rs:130-142 `PubRelProperties::len`. -/
def len (p : PubRelProperties) : Nat :=
  optStrLen p.reason_string + userPropsLen p.user_properties

/-- src/pubrel.rs:145-146, the locals before the loop. -/
def init : PubRelProperties := { reason_string := none, user_properties := [] }

/-- src/pubrel.rs:160-173, the `match` in the loop. -/
def step (mode : StrMode) (prop : UInt8) (ty : PropertyType) (s : PubRelProperties)
    (cursor : Nat) : M (PubRelProperties × Nat) :=
  match ty with
  | .ReasonString => do
    let reason ← read_mqtt_string mode
    let cursor := cursor + (2 + reason.length)
    pure ({ s with reason_string := some reason }, cursor)
  | .UserProperty => do
    let key ← read_mqtt_string mode
    let value ← read_mqtt_string mode
    let cursor := cursor + (2 + key.length + 2 + value.length)
    pure ({ s with user_properties := s.user_properties ++ [(key, value)] }, cursor)
  | _ => throwE (.InvalidPropertyType prop)

/-- src/pubrel.rs:144-180 `PubRelProperties::read`. -/
def read (mode : StrMode) : M (Option PubRelProperties) := readProps (step mode) init

/-- src/pubrel.rs:182-198 `PubRelProperties::write`. -/
def write (p : PubRelProperties) : M Unit := do
  let len := p.len
  let _ ← write_remaining_length len
  writeOptStr .ReasonString p.reason_string
  writeUserProps p.user_properties

end PubRelProperties

/-- src/pubrel.rs:202-210 `fn reason`. -/
def PubRelReason.ofU8 (num : UInt8) : Out PubRelReason :=
  match num.toNat with
  | 0 => .ok .Success
  | 146 => .ok .PacketIdentifierNotFound
  | _ => .err (.InvalidConnectReturnCode num)

/-- src/pubrel.rs:212-217 `fn code`. -/
def PubRelReason.code : PubRelReason → UInt8
  | .Success => 0
  | .PacketIdentifierNotFound => 146

namespace PubRel

/-- src/pubrel.rs:48-67 `PubRel::len`. -/
def len (p : PubRel) : Nat :=
  if p.reason = .Success ∧ p.properties = none then 2
  else 2 + 1 + optPropsLen PubRelProperties.len p.properties

/-- src/pubrel.rs:36-46 `PubRel::size`. -/
def size (p : PubRel) : Nat :=
  if p.reason = .Success ∧ p.properties = none then 4
  else
    let len := p.len
    let remaining_len_size := len_len len
    1 + remaining_len_size + len

/-- src/pubrel.rs:69-98 `PubRel::read`. -/
def read (mode : StrMode) (fixed_header : FixedHeader) : M PubRel := do
  advance fixed_header.fixed_header_len
  let pkid ← read_u16
  if fixed_header.remaining_len = 2 then
    pure { pkid := pkid, reason := .Success, properties := none }
  else do
    let ack_reason ← read_u8
    if fixed_header.remaining_len < 4 then do
      let reason ← liftOut (PubRelReason.ofU8 ack_reason)
      pure { pkid := pkid, reason := reason, properties := none }
    else do
      let properties ← PubRelProperties.read mode
      let reason ← liftOut (PubRelReason.ofU8 ack_reason)
      pure { pkid := pkid, reason := reason, properties := properties }

/-- src/pubrel.rs:100-120 `PubRel::write`. -/
def write (p : PubRel) : M Nat := do
  let len := p.len
  putU8 0x62
  let count ← write_remaining_length len
  putU16 p.pkid
  if p.reason = .Success ∧ p.properties = none then pure 4
  else do
    putU8 p.reason.code
    writeOptProps PubRelProperties.write p.properties
    pure (1 + count + len)

end PubRel

end Mqtt
