import Verif.Model.Basic
/-
Model of /repo/src/pubcomp.rs.
-/
namespace Mqtt

/-- src/pubcomp.rs:12-15. -/
inductive PubCompReason
  | Success
  | PacketIdentifierNotFound
  deriving DecidableEq, Repr

/-- src/pubcomp.rs:123-126. -/
structure PubCompProperties where
  reason_string : Option MqttString
  user_properties : List (MqttString × MqttString)
  deriving DecidableEq, Repr

/-- src/pubcomp.rs:19-23. -/
structure PubComp where
  pkid : UInt16
  reason : PubCompReason
  properties : Option PubCompProperties
  deriving DecidableEq, Repr

/-- src/pubcomp.rs:27-33 `PubComp::new`. -/
def PubComp.new (pkid : UInt16) (properties : Option PubCompProperties) : PubComp :=
  { pkid := pkid, reason := .Success, properties := properties }

namespace PubCompProperties

/-- src/pubcomp.rs:129-141 `PubCompProperties::len`. -/
def len (p : PubCompProperties) : Nat :=
  optStrLen p.reason_string + userPropsLen p.user_properties

/-- src/pubcomp.rs:144-145, the locals before the loop. -/
def init : PubCompProperties := { reason_string := none, user_properties := [] }

/-- src/pubcomp.rs:159-172, the `match` in the loop. -/
def step (mode : StrMode) (prop : UInt8) (ty : PropertyType) (s : PubCompProperties)
    (cursor : Nat) : M (PubCompProperties × Nat) :=
  match ty with
  | .ReasonString => do
    let reason ← read_mqtt_string mode
    let cursor := cursor + (2 + reason.length)
    pure ({ s with reason_string := some reason }, cursor)
  | .UserProperty => do
    let key ← read_mqtt_string mode
    let value ← read_mqtt_string mode
    let cursor := cursor + (2 + key.length + 2 + value.length)
    pure ({ s with user_properties := s.user_properties ++ [(key, value)] }, cursor)
  | _ => throwE (.InvalidPropertyType prop)

/-- src/pubcomp.rs:143-179 `PubCompProperties::read`. -/
def read (mode : StrMode) : M (Option PubCompProperties) := readProps (step mode) init

/-- src/pubcomp.rs:181-197 `PubCompProperties::write`. -/
def write (p : PubCompProperties) : M Unit := do
  let len := p.len
  let _ ← write_remaining_length len
  writeOptStr .ReasonString p.reason_string
  writeUserProps p.user_properties

end PubCompProperties

/-- src/pubcomp.rs:201-209 `fn reason`. -/
def PubCompReason.ofU8 (num : UInt8) : Out PubCompReason :=
  match num.toNat with
  | 0 => .ok .Success
  | 146 => .ok .PacketIdentifierNotFound
  | _ => .err (.InvalidConnectReturnCode num)

/-- src/pubcomp.rs:211-216 `fn code`. -/
def PubCompReason.code : PubCompReason → UInt8
  | .Success => 0
  | .PacketIdentifierNotFound => 146

namespace PubComp

/-- src/pubcomp.rs:46-65 `PubComp::len`. -/
def len (p : PubComp) : Nat :=
  if p.reason = .Success ∧ p.properties = none then 2
  else 2 + 1 + optPropsLen PubCompProperties.len p.properties

/-- src/pubcomp.rs:36-44 `PubComp::size`. -/
def size (p : PubComp) : Nat :=
  if p.reason = .Success ∧ p.properties = none then 4
  else
    let len := p.len
    let remaining_len_size := len_len len
    1 + remaining_len_size + len

/-- src/pubcomp.rs:67-97 `PubComp::read`. -/
def read (mode : StrMode) (fixed_header : FixedHeader) : M PubComp := do
  advance fixed_header.fixed_header_len
  let pkid ← read_u16
  if fixed_header.remaining_len = 2 then
    pure { pkid := pkid, reason := .Success, properties := none }
  else do
    let ack_reason ← read_u8
    if fixed_header.remaining_len < 4 then do
      let reason ← liftOut (PubCompReason.ofU8 ack_reason)
      pure { pkid := pkid, reason := reason, properties := none }
    else do
      let properties ← PubCompProperties.read mode
      let reason ← liftOut (PubCompReason.ofU8 ack_reason)
      pure { pkid := pkid, reason := reason, properties := properties }

/-- src/pubcomp.rs:99-119 `PubComp::write`. -/
def write (p : PubComp) : M Nat := do
  let len := p.len
  putU8 0x70
  let count ← write_remaining_length len
  putU16 p.pkid
  if p.reason = .Success ∧ p.properties = none then pure 4
  else do
    putU8 p.reason.code
    writeOptProps PubCompProperties.write p.properties
    pure (1 + count + len)

end PubComp

end Mqtt
