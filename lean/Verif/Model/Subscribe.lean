import Verif.Model.Basic
/-
Model of /repo/src/subscribe.rs.
-/
namespace Mqtt

/-- src/subscribe.rs:191-195. -/
inductive RetainForwardRule
  | OnEverySubscribe
  | OnNewSubscribe
  | Never
  deriving DecidableEq, Repr

/-- src/subscribe.rs:109-115. -/
structure Filter where
  path : MqttString
  qos : QoS
  nolocal : Bool
  preserve_retain : Bool
  retain_forward_rule : RetainForwardRule
  deriving DecidableEq, Repr

/-- src/subscribe.rs:204-207. -/
structure SubscribeProperties where
  id : Option Nat
  user_properties : List (MqttString × MqttString)
  deriving DecidableEq, Repr

/-- src/subscribe.rs:11-15. -/
structure Subscribe where
  pkid : UInt16
  filters : List Filter
  properties : Option SubscribeProperties
  deriving DecidableEq, Repr

/-- src/subscribe.rs:118-124 `Filter::new` (defaults of lib.rs:626-630 and subscribe.rs:197-201). -/
def Filter.new (topic : MqttString) (qos : QoS) : Filter :=
  { path := topic, qos := qos, nolocal := false, preserve_retain := false,
    retain_forward_rule := .OnEverySubscribe }

/-- src/subscribe.rs:27-36 `Subscribe::new_many`; `Subscribe::new` (19-25) is the case of one
filter. -/
def Subscribe.new_many (filters : List Filter) (properties : Option SubscribeProperties) :
    Subscribe :=
  { pkid := 0, filters := filters, properties := properties }

/-- src/subscribe.rs:126-129 `Filter::len`. -/
def Filter.len (f : Filter) : Nat := 2 + f.path.length + 1

namespace SubscribeProperties

/-- src/subscribe.rs:210-222 `SubscribeProperties::len`. -/
def len (p : SubscribeProperties) : Nat :=
  (match p.id with
    | some id => 1 + len_len id
    | none => 0)
  + userPropsLen p.user_properties

/-- src/subscribe.rs:225-226, the locals before the loop. -/
def init : SubscribeProperties := { id := none, user_properties := [] }

/-- src/subscribe.rs:241-256, the `match` in the loop (the extra `1 +` is in the code). -/
def step (mode : StrMode) (prop : UInt8) (ty : PropertyType) (s : SubscribeProperties)
    (cursor : Nat) : M (SubscribeProperties × Nat) :=
  match ty with
  | .SubscriptionIdentifier => do
    let (id_len, sub_id) ← lengthM
    let cursor := cursor + (1 + id_len)
    advance id_len
    pure ({ s with id := some sub_id }, cursor)
  | .UserProperty => do
    let key ← read_mqtt_string mode
    let value ← read_mqtt_string mode
    let cursor := cursor + (2 + key.length + 2 + value.length)
    pure ({ s with user_properties := s.user_properties ++ [(key, value)] }, cursor)
  | _ => throwE (.InvalidPropertyType prop)

/-- src/subscribe.rs:224-263 `SubscribeProperties::read`. -/
def read (mode : StrMode) : M (Option SubscribeProperties) := readProps (step mode) init

/-- src/subscribe.rs:265-281 `SubscribeProperties::write`. -/
def write (p : SubscribeProperties) : M Unit := do
  let len := p.len
  let _ ← write_remaining_length len
  match p.id with
  | some id => do
    putU8 PropertyType.SubscriptionIdentifier.toU8
    let _ ← write_remaining_length id
    writeUserProps p.user_properties
  | none => writeUserProps p.user_properties

end SubscribeProperties

namespace Filter

/-- src/subscribe.rs:136-160, one iteration of the loop of `Filter::read`. -/
def readOne (mode : StrMode) : M Filter := do
  let path ← read_mqtt_string mode
  let options ← read_u8
  let requested_qos := options &&& 0b00000011
  let nolocal := (options >>> 2) &&& 0b00000001
  let nolocal : Bool := nolocal != 0
  let preserve_retain := (options >>> 3) &&& 0b00000001
  let preserve_retain : Bool := preserve_retain != 0
  let rule := (options >>> 4) &&& 0b00000011
  let retain_forward_rule ←
    match rule.toNat with
    | 0 => pure RetainForwardRule.OnEverySubscribe
    | 1 => pure RetainForwardRule.OnNewSubscribe
    | 2 => pure RetainForwardRule.Never
    | _ => throwE (.InvalidRetainForwardRule rule)
  let q ← qosOrErr requested_qos
  pure { path := path, qos := q, nolocal := nolocal, preserve_retain := preserve_retain,
         retain_forward_rule := retain_forward_rule }

/-- src/subscribe.rs:135-161, the `while bytes.has_remaining()` loop; the first argument is
fuel. -/
def readLoop (mode : StrMode) : (fuel : Nat) → List Filter → M (List Filter)
  | 0, _ => fun b => (.diverge, b)
  | fuel + 1, filters => do
    let bytes ← getBuf
    if bytes.isEmpty then pure filters
    else do
      let f ← readOne mode
      readLoop mode fuel (filters ++ [f])

/-- src/subscribe.rs:131-164 `Filter::read`. -/
def read (mode : StrMode) : M (List Filter) := do
  let bytes ← getBuf
  readLoop mode (bytes.length + 1) []

/-- src/subscribe.rs:167-182, the options byte computed by `Filter::write`. -/
def options (f : Filter) : UInt8 :=
  let options : UInt8 := 0
  let options := options ||| f.qos.toU8
  let options := if f.nolocal then options ||| 0b00000100 else options
  let options := if f.preserve_retain then options ||| 0b00001000 else options
  options ||| (match f.retain_forward_rule with
    | .OnEverySubscribe => 0b00000000
    | .OnNewSubscribe => 0b00010000
    | .Never => 0b00100000)

/-- src/subscribe.rs:166-187 `Filter::write`. -/
def write (f : Filter) : M Unit := do
  write_mqtt_string f.path
  putU8 f.options

/-- src/subscribe.rs:99-101, the loop over the filters. -/
def writeAll : List Filter → M Unit
  | [] => pure ()
  | f :: fs => do
    write f
    writeAll fs

end Filter

namespace Subscribe

/-- src/subscribe.rs:46-59 `Subscribe::len`. -/
def len (s : Subscribe) : Nat :=
  2 + s.filters.foldl (fun acc t => acc + t.len) 0
    + optPropsLen SubscribeProperties.len s.properties

/-- src/subscribe.rs:39-44 `Subscribe::size`. -/
def size (s : Subscribe) : Nat :=
  let len := s.len
  let remaining_len_size := len_len len
  1 + remaining_len_size + len

/-- src/subscribe.rs:61-79 `Subscribe::read`. -/
def read (mode : StrMode) (fixed_header : FixedHeader) : M Subscribe := do
  advance fixed_header.fixed_header_len
  let pkid ← read_u16
  let properties ← SubscribeProperties.read mode
  let filters ← Filter.read mode
  match filters.length with
  | 0 => throwE .EmptySubscription
  | _ => pure { pkid := pkid, filters := filters, properties := properties }

/-- src/subscribe.rs:81-104 `Subscribe::write`. -/
def write (s : Subscribe) : M Nat := do
  putU8 0x82
  let remaining_len := s.len
  let remaining_len_bytes ← write_remaining_length remaining_len
  putU16 s.pkid
  writeOptProps SubscribeProperties.write s.properties
  Filter.writeAll s.filters
  pure (1 + remaining_len_bytes + remaining_len)

end Subscribe

end Mqtt
