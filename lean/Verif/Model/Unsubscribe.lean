import Verif.Model.Basic
/-
Model of /repo/src/unsubscribe.rs.
-/
namespace Mqtt

/-- src/unsubscribe.rs:98-100. -/
structure UnsubscribeProperties where
  user_properties : List (MqttString × MqttString)
  deriving DecidableEq, Repr

/-- src/unsubscribe.rs:11-15. -/
structure Unsubscribe where
  pkid : UInt16
  filters : List MqttString
  properties : Option UnsubscribeProperties
  deriving DecidableEq, Repr

/-- src/unsubscribe.rs:18-24 `Unsubscribe::new`. -/
def Unsubscribe.new (filter : MqttString) (properties : Option UnsubscribeProperties) :
    Unsubscribe :=
  { pkid := 0, filters := [filter], properties := properties }

namespace UnsubscribeProperties

/-- src/unsubscribe.rs:103-111 `UnsubscribeProperties::len`. -/
def len (p : UnsubscribeProperties) : Nat := userPropsLen p.user_properties

/-- src/unsubscribe.rs:114, the local before the loop. -/
def init : UnsubscribeProperties := { user_properties := [] }

/-- src/unsubscribe.rs:129-137, the `match` in the loop. -/
def step (mode : StrMode) (prop : UInt8) (ty : PropertyType) (s : UnsubscribeProperties)
    (cursor : Nat) : M (UnsubscribeProperties × Nat) :=
  match ty with
  | .UserProperty => do
    let key ← read_mqtt_string mode
    let value ← read_mqtt_string mode
    let cursor := cursor + (2 + key.length + 2 + value.length)
    pure ({ s with user_properties := s.user_properties ++ [(key, value)] }, cursor)
  | _ => throwE (.InvalidPropertyType prop)

/-- src/unsubscribe.rs:113-141 `UnsubscribeProperties::read`. -/
def read (mode : StrMode) : M (Option UnsubscribeProperties) := readProps (step mode) init

/-- src/unsubscribe.rs:143-154 `UnsubscribeProperties::write`. -/
def write (p : UnsubscribeProperties) : M Unit := do
  let len := p.len
  let _ ← write_remaining_length len
  writeUserProps p.user_properties

end UnsubscribeProperties

namespace Unsubscribe

/-- src/unsubscribe.rs:34-49 `Unsubscribe::len`. -/
def len (u : Unsubscribe) : Nat :=
  2 + u.filters.foldl (fun s t => 2 + s + t.length) 0
    + optPropsLen UnsubscribeProperties.len u.properties

/-- src/unsubscribe.rs:27-32 `Unsubscribe::size`. -/
def size (u : Unsubscribe) : Nat :=
  let len := u.len
  let remaining_len_size := len_len len
  1 + remaining_len_size + len

/-- src/unsubscribe.rs:59-62, the `while bytes.has_remaining()` loop; the first argument is
fuel. -/
def readLoop (mode : StrMode) : (fuel : Nat) → List MqttString → M (List MqttString)
  | 0, _ => fun b => (.diverge, b)
  | fuel + 1, filters => do
    let bytes ← getBuf
    if bytes.isEmpty then pure filters
    else do
      let filter ← read_mqtt_string mode
      readLoop mode fuel (filters ++ [filter])

/-- src/unsubscribe.rs:51-70 `Unsubscribe::read`. -/
def read (mode : StrMode) (fixed_header : FixedHeader) : M Unsubscribe := do
  advance fixed_header.fixed_header_len
  let pkid ← read_u16
  let properties ← UnsubscribeProperties.read mode
  let bytes ← getBuf
  let filters ← readLoop mode (bytes.length + 1) []
  pure { pkid := pkid, filters := filters, properties := properties }

/-- src/unsubscribe.rs:89-91, the loop over the filters. -/
def writeFilters : List MqttString → M Unit
  | [] => pure ()
  | f :: fs => do
    write_mqtt_string f
    writeFilters fs

/-- src/unsubscribe.rs:72-94 `Unsubscribe::write`. -/
def write (u : Unsubscribe) : M Nat := do
  putU8 0xA2
  let remaining_len := u.len
  let remaining_len_bytes ← write_remaining_length remaining_len
  putU16 u.pkid
  writeOptProps UnsubscribeProperties.write u.properties
  writeFilters u.filters
  pure (1 + remaining_len_bytes + remaining_len)

end Unsubscribe

end Mqtt
