/-
Model of /repo/src/lib.rs (everything but `Packet`), and of the few operations of the
external crate `bytes` that the code uses.
-/
namespace Mqtt

/-- Models `Bytes`, `BytesMut`, `&[u8]` and `slice::Iter<u8>` (contents only; sharing,
capacity and reference counts are not modelled). -/
abbrev Bytes := List UInt8

/-- src/lib.rs:56-70, the `MqttString` type selected by cargo features. `utf8` stands for the
default `String`, `boxed_string` and `cow_string` (whose readers, src/lib.rs:496-513, are the
same up to allocation), `binary` stands for `binary_string` (src/lib.rs:516-519).
A value of type `MqttString` is modelled by its bytes. -/
inductive StrMode
  | utf8
  | binary
  deriving DecidableEq, Repr

/-- An `MqttString` (src/lib.rs:56-70) as the byte sequence `as_bytes()`. -/
abbrev MqttString := Bytes

/-- src/lib.rs:643-699. `PayloadNotUtf8`'s payload is dropped: the variant is never built. -/
inductive Err
  | InvalidConnectReturnCode (n : UInt8)
  | InvalidReason (n : UInt8)
  | InvalidRemainingLength (n : Nat)
  | InvalidProtocol
  | InvalidProtocolLevel (n : UInt8)
  | IncorrectPacketFormat
  | InvalidPacketType (n : UInt8)
  | InvalidRetainForwardRule (n : UInt8)
  | InvalidQoS (n : UInt8)
  | InvalidSubscribeReasonCode (n : UInt8)
  | PacketIdZero
  | EmptySubscription
  | SubscriptionIdZero
  | PayloadSizeIncorrect
  | PayloadTooLong
  | BinaryDataTooLong
  | PayloadSizeLimitExceeded (pkt_size max : Nat)
  | PayloadRequired
  | PayloadNotUtf8
  | TopicNotUtf8
  | BoundaryCrossed (n : Nat)
  | MalformedPacket
  | MalformedRemainingLength
  | InvalidPropertyType (n : UInt8)
  | InsufficientBytes (n : Nat)
  deriving DecidableEq, Repr

/-- Outcome of a Rust call: `Ok`, `Err`, a panic, or (only for a loop that outlives the
model's fuel) no result. -/
inductive Out (α : Type) where
  | ok (a : α)
  | err (e : Err)
  | panic
  | diverge
  deriving DecidableEq, Repr

/-- A Rust function over one `&mut Bytes`/`&mut BytesMut`: outcome and final buffer. The
buffer is returned on failure too, because the caller can see it. -/
def M (α : Type) : Type := Bytes → Out α × Bytes

namespace M

/-- `Ok(a)`, buffer untouched. -/
def pure {α : Type} (a : α) : M α := fun b => (.ok a, b)

/-- Sequencing with `?`: the first failure is returned and the buffer stays as it then is. -/
def bind {α β : Type} (m : M α) (f : α → M β) : M β := fun b =>
  match m b with
  | (.ok a, b') => f a b'
  | (.err e, b') => (.err e, b')
  | (.panic, b') => (.panic, b')
  | (.diverge, b') => (.diverge, b')

instance : Monad M where
  pure := M.pure
  bind := M.bind

end M

/-- `return Err(e)`. -/
def throwE {α : Type} (e : Err) : M α := fun b => (.err e, b)

/-- A Rust panic. -/
def panicM {α : Type} : M α := fun b => (.panic, b)

/-- A `Result`-valued function that does not touch the buffer, followed by `?`. -/
def liftOut {α : Type} (o : Out α) : M α := fun b => (o, b)

/-- Read access to the whole buffer (`bytes.iter()`, `bytes.len()`). -/
def getBuf : M Bytes := fun b => (.ok b, b)

/-! ### External crate `bytes` (trusted: its documented behaviour, panics included) -/

/-- `Buf::get_u8`: panics on an empty buffer. -/
def getU8 : M UInt8
  | [] => (.panic, [])
  | b :: bs => (.ok b, bs)

/-- `Buf::get_u16` (big endian): panics if fewer than 2 bytes remain. -/
def getU16 : M UInt16
  | b0 :: b1 :: bs => (.ok (UInt16.ofNat (b0.toNat * 256 + b1.toNat)), bs)
  | bs => (.panic, bs)

/-- `Buf::get_u32` (big endian): panics if fewer than 4 bytes remain. -/
def getU32 : M UInt32
  | b0 :: b1 :: b2 :: b3 :: bs =>
    (.ok (UInt32.ofNat (((b0.toNat * 256 + b1.toNat) * 256 + b2.toNat) * 256 + b3.toNat)), bs)
  | bs => (.panic, bs)

/-- `Buf::advance(n)`: panics if `n` exceeds the remaining length. -/
def advance (n : Nat) : M Unit := fun b =>
  if n ≤ b.length then (.ok (), b.drop n) else (.panic, b)

/-- `Bytes::split_to(n)` / `BytesMut::split_to(n)`: panics if `n` exceeds the length. -/
def splitTo (n : Nat) : M Bytes := fun b =>
  if n ≤ b.length then (.ok (b.take n), b.drop n) else (.panic, b)

/-- `BytesMut::extend_from_slice` / `put_slice`. -/
def putBytes (s : Bytes) : M Unit := fun b => (.ok (), b ++ s)

/-- `BufMut::put_u8`. -/
def putU8 (x : UInt8) : M Unit := putBytes [x]

/-- `BufMut::put_u16` (big endian). -/
def putU16 (x : UInt16) : M Unit :=
  putBytes [UInt8.ofNat (x.toNat / 256), UInt8.ofNat (x.toNat % 256)]

/-- `BufMut::put_u32` (big endian). -/
def putU32 (x : UInt32) : M Unit :=
  putBytes [UInt8.ofNat (x.toNat / 16777216), UInt8.ofNat (x.toNat / 65536 % 256),
    UInt8.ofNat (x.toNat / 256 % 256), UInt8.ofNat (x.toNat % 256)]

/-- `buffer[i] = x` on `BytesMut`: panics if out of bounds. -/
def setIndex (i : Nat) (x : UInt8) : M Unit := fun b =>
  if i < b.length then (.ok (), b.set i x) else (.panic, b)

/-! ### External: `core::str::from_utf8` -/

/-- A UTF-8 continuation byte, `0x80..=0xBF`. -/
def isCont (b : UInt8) : Bool := 0x80 ≤ b && b ≤ 0xBF

/-- `core::str::from_utf8(bytes).is_ok()`: the table of `core/src/str/validations.rs`
(`run_utf8_validation`), without its block-wise ASCII fast path. -/
def utf8Valid : Bytes → Bool
  | [] => true
  | b0 :: rest =>
    if b0 < 0x80 then utf8Valid rest
    else if 0xC2 ≤ b0 && b0 ≤ 0xDF then
      match rest with
      | b1 :: rest => isCont b1 && utf8Valid rest
      | _ => false
    else if 0xE0 ≤ b0 && b0 ≤ 0xEF then
      match rest with
      | b1 :: b2 :: rest =>
        ((b0 == 0xE0 && (0xA0 ≤ b1 && b1 ≤ 0xBF))
          || ((0xE1 ≤ b0 && b0 ≤ 0xEC) && isCont b1)
          || (b0 == 0xED && (0x80 ≤ b1 && b1 ≤ 0x9F))
          || ((0xEE ≤ b0 && b0 ≤ 0xEF) && isCont b1))
        && isCont b2 && utf8Valid rest
      | _ => false
    else if 0xF0 ≤ b0 && b0 ≤ 0xF4 then
      match rest with
      | b1 :: b2 :: b3 :: rest =>
        ((b0 == 0xF0 && (0x90 ≤ b1 && b1 ≤ 0xBF))
          || ((0xF1 ≤ b0 && b0 ≤ 0xF3) && isCont b1)
          || (b0 == 0xF4 && (0x80 ≤ b1 && b1 ≤ 0x8F)))
        && isCont b2 && isCont b3 && utf8Valid rest
      | _ => false
    else false

/-! ### src/lib.rs -/

/-- src/lib.rs:238-256 (`#[repr(u8)]`, discriminants 1..14). -/
inductive PacketType
  | Connect | ConnAck | Publish | PubAck | PubRec | PubRel | PubComp | Subscribe | SubAck
  | Unsubscribe | UnsubAck | PingReq | PingResp | Disconnect
  deriving DecidableEq, Repr

/-- `packet_type as u8`, src/lib.rs:238-256. -/
def PacketType.toU8 : PacketType → UInt8
  | .Connect => 1 | .ConnAck => 2 | .Publish => 3 | .PubAck => 4 | .PubRec => 5
  | .PubRel => 6 | .PubComp => 7 | .Subscribe => 8 | .SubAck => 9 | .Unsubscribe => 10
  | .UnsubAck => 11 | .PingReq => 12 | .PingResp => 13 | .Disconnect => 14

/-- src/lib.rs:258-288. -/
inductive PropertyType
  | PayloadFormatIndicator | MessageExpiryInterval | ContentType | ResponseTopic
  | CorrelationData | SubscriptionIdentifier | SessionExpiryInterval
  | AssignedClientIdentifier | ServerKeepAlive | AuthenticationMethod | AuthenticationData
  | RequestProblemInformation | WillDelayInterval | RequestResponseInformation
  | ResponseInformation | ServerReference | ReasonString | ReceiveMaximum
  | TopicAliasMaximum | TopicAlias | MaximumQos | RetainAvailable | UserProperty
  | MaximumPacketSize | WildcardSubscriptionAvailable | SubscriptionIdentifierAvailable
  | SharedSubscriptionAvailable
  deriving DecidableEq, Repr

/-- `PropertyType::X as u8`, the discriminants of src/lib.rs:258-288. -/
def PropertyType.toU8 : PropertyType → UInt8
  | .PayloadFormatIndicator => 1
  | .MessageExpiryInterval => 2
  | .ContentType => 3
  | .ResponseTopic => 8
  | .CorrelationData => 9
  | .SubscriptionIdentifier => 11
  | .SessionExpiryInterval => 17
  | .AssignedClientIdentifier => 18
  | .ServerKeepAlive => 19
  | .AuthenticationMethod => 21
  | .AuthenticationData => 22
  | .RequestProblemInformation => 23
  | .WillDelayInterval => 24
  | .RequestResponseInformation => 25
  | .ResponseInformation => 26
  | .ServerReference => 28
  | .ReasonString => 31
  | .ReceiveMaximum => 33
  | .TopicAliasMaximum => 34
  | .TopicAlias => 35
  | .MaximumQos => 36
  | .RetainAvailable => 37
  | .UserProperty => 38
  | .MaximumPacketSize => 39
  | .WildcardSubscriptionAvailable => 40
  | .SubscriptionIdentifierAvailable => 41
  | .SharedSubscriptionAvailable => 42

/-- src/lib.rs:355-388 `fn property`. -/
def property (num : UInt8) : Out PropertyType :=
  match num.toNat with
  | 1 => .ok .PayloadFormatIndicator
  | 2 => .ok .MessageExpiryInterval
  | 3 => .ok .ContentType
  | 8 => .ok .ResponseTopic
  | 9 => .ok .CorrelationData
  | 11 => .ok .SubscriptionIdentifier
  | 17 => .ok .SessionExpiryInterval
  | 18 => .ok .AssignedClientIdentifier
  | 19 => .ok .ServerKeepAlive
  | 21 => .ok .AuthenticationMethod
  | 22 => .ok .AuthenticationData
  | 23 => .ok .RequestProblemInformation
  | 24 => .ok .WillDelayInterval
  | 25 => .ok .RequestResponseInformation
  | 26 => .ok .ResponseInformation
  | 28 => .ok .ServerReference
  | 31 => .ok .ReasonString
  | 33 => .ok .ReceiveMaximum
  | 34 => .ok .TopicAliasMaximum
  | 35 => .ok .TopicAlias
  | 36 => .ok .MaximumQos
  | 37 => .ok .RetainAvailable
  | 38 => .ok .UserProperty
  | 39 => .ok .MaximumPacketSize
  | 40 => .ok .WildcardSubscriptionAvailable
  | 41 => .ok .SubscriptionIdentifierAvailable
  | 42 => .ok .SharedSubscriptionAvailable
  | _ => .err (.InvalidPropertyType num)

/-- src/lib.rs:302-314 `struct FixedHeader`. -/
structure FixedHeader where
  byte1 : UInt8
  fixed_header_len : Nat
  remaining_len : Nat
  deriving DecidableEq, Repr

/-- src/lib.rs:317-324 `FixedHeader::new`. -/
def FixedHeader.new (byte1 : UInt8) (remaining_len_len remaining_len : Nat) : FixedHeader :=
  { byte1 := byte1, fixed_header_len := remaining_len_len + 1, remaining_len := remaining_len }

/-- src/lib.rs:326-345 `FixedHeader::packet_type`. -/
def FixedHeader.packet_type (fh : FixedHeader) : Out PacketType :=
  let num := fh.byte1 >>> 4
  match num.toNat with
  | 1 => .ok .Connect
  | 2 => .ok .ConnAck
  | 3 => .ok .Publish
  | 4 => .ok .PubAck
  | 5 => .ok .PubRec
  | 6 => .ok .PubRel
  | 7 => .ok .PubComp
  | 8 => .ok .Subscribe
  | 9 => .ok .SubAck
  | 10 => .ok .Unsubscribe
  | 11 => .ok .UnsubAck
  | 12 => .ok .PingReq
  | 13 => .ok .PingResp
  | 14 => .ok .Disconnect
  | _ => .err (.InvalidPacketType num)

/-- src/lib.rs:350-352 `FixedHeader::frame_length`. -/
def FixedHeader.frame_length (fh : FixedHeader) : Nat := fh.fixed_header_len + fh.remaining_len

/-- src/lib.rs:449-473, the `for` loop of `fn length` with its locals as arguments; the empty
case is the code after the loop with `done = false`. -/
def lengthLoop : Bytes → (len len_len shift : Nat) → Out (Nat × Nat)
  | [], _, _, _ => .err (.InsufficientBytes 1)
  | b :: bs, len, len_len, shift =>
    let len_len := len_len + 1
    let byte := b.toNat
    let len := len + ((byte &&& 0x7F) <<< shift)
    if (byte &&& 0x80) = 0 then .ok (len_len, len)
    else
      let shift := shift + 7
      if shift > 21 then .err .MalformedRemainingLength
      else lengthLoop bs len len_len shift

/-- src/lib.rs:439-476 `fn length`. -/
def length (stream : Bytes) : Out (Nat × Nat) := lengthLoop stream 0 0 0

/-- src/lib.rs:423-434 `parse_fixed_header`. -/
def parse_fixed_header (stream : Bytes) : Out FixedHeader :=
  let stream_len := stream.length
  if stream_len < 2 then .err (.InsufficientBytes (2 - stream_len))
  else
    match stream with
    | [] => .panic
    | byte1 :: stream =>
      match length stream with
      | .ok (len_len, len) => .ok (FixedHeader.new byte1 len_len len)
      | .err e => .err e
      | .panic => .panic
      | .diverge => .diverge

/-- src/lib.rs:395-420 `check`. -/
def check (stream : Bytes) (max_packet_size : Option Nat) : Out FixedHeader :=
  let stream_len := stream.length
  match parse_fixed_header stream with
  | .err e => .err e
  | .panic => .panic
  | .diverge => .diverge
  | .ok fixed_header =>
    let too_big : Option Nat :=
      match max_packet_size with
      | some max_size => if fixed_header.remaining_len > max_size then some max_size else none
      | none => none
    match too_big with
    | some max_size => .err (.PayloadSizeLimitExceeded fixed_header.remaining_len max_size)
    | none =>
      let frame_length := fixed_header.frame_length
      if stream_len < frame_length then .err (.InsufficientBytes (frame_length - stream_len))
      else .ok fixed_header

/-- `length(bytes.iter())?`: the buffer is only looked at. -/
def lengthM : M (Nat × Nat) := fun b => (length b, b)

/-- src/lib.rs:590-596 `read_u16`. -/
def read_u16 : M UInt16 := do
  let stream ← getBuf
  if stream.length < 2 then throwE .MalformedPacket else getU16

/-- src/lib.rs:599-605 `read_u8`. -/
def read_u8 : M UInt8 := do
  let stream ← getBuf
  if stream.isEmpty then throwE .MalformedPacket else getU8

/-- src/lib.rs:608-614 `read_u32`. -/
def read_u32 : M UInt32 := do
  let stream ← getBuf
  if stream.length < 4 then throwE .MalformedPacket else getU32

/-- src/lib.rs:480-492 `read_mqtt_bytes`. -/
def read_mqtt_bytes : M Bytes := do
  let len ← read_u16
  let stream ← getBuf
  if len.toNat > stream.length then throwE (.BoundaryCrossed len.toNat)
  else splitTo len.toNat

/-- src/lib.rs:494-519 `read_mqtt_string`, the three feature variants. -/
def read_mqtt_string (mode : StrMode) : M MqttString := do
  let bytes ← read_mqtt_bytes
  match mode with
  | .utf8 => if utf8Valid bytes then pure bytes else throwE .TopicNotUtf8
  | .binary => pure bytes

/-- src/lib.rs:523-530 `write_mqtt_bytes`. -/
def write_mqtt_bytes (bytes : Bytes) : M Unit :=
  if bytes.length < 65536 then do
    putU16 (UInt16.ofNat bytes.length)
    putBytes bytes
  else throwE .BinaryDataTooLong

/-- src/lib.rs:535-542 `write_mqtt_string`, both feature variants. -/
def write_mqtt_string (string : MqttString) : M Unit := write_mqtt_bytes string

/-- src/lib.rs:554-565, the `while !done` loop of `write_remaining_length`. The first argument
is fuel: a 64-bit `usize` has at most ten base-128 digits. -/
def writeRemLoop : (fuel x count : Nat) → M Nat
  | 0, _, _ => fun b => (.diverge, b)
  | fuel + 1, x, count => do
    let byte := UInt8.ofNat (x % 128)
    let x := x / 128
    let byte := if x > 0 then byte ||| 128 else byte
    putU8 byte
    let count := count + 1
    if x = 0 then pure count else writeRemLoop fuel x count

/-- src/lib.rs:545-568 `write_remaining_length`. -/
def write_remaining_length (len : Nat) : M Nat :=
  if len > 268435455 then throwE .PayloadTooLong else writeRemLoop 10 len 0

/-- src/lib.rs:572-582 `len_len`. -/
def len_len (len : Nat) : Nat :=
  if len ≥ 2097152 then 4
  else if len ≥ 16384 then 3
  else if len ≥ 128 then 2
  else 1

/-- src/lib.rs:620-624 `enum QoS`. -/
inductive QoS
  | AtMostOnce | AtLeastOnce | ExactlyOnce
  deriving DecidableEq, Repr

/-- `qos as u8`, src/lib.rs:617-624. -/
def QoS.toU8 : QoS → UInt8
  | .AtMostOnce => 0 | .AtLeastOnce => 1 | .ExactlyOnce => 2

/-- src/lib.rs:634-641 `fn qos`. -/
def qos (num : UInt8) : Option QoS :=
  match num.toNat with
  | 0 => some .AtMostOnce
  | 1 => some .AtLeastOnce
  | 2 => some .ExactlyOnce
  | _ => none

/-- `qos(num).ok_or(Error::InvalidQoS(num))?`, src/publish.rs:66, src/connect.rs:396,
src/subscribe.rs:156. -/
def qosOrErr (num : UInt8) : M QoS :=
  match qos num with
  | some q => pure q
  | none => throwE (.InvalidQoS num)

/-- `u8::from(b)` for a Rust `bool`. -/
def boolU8 : Bool → UInt8
  | true => 1
  | false => 0

/-- The `while cursor < properties_len` loop that occurs in all thirteen property readers:
src/connect.rs:193-239 and 493-533, src/connack.rs:238-321, src/publish.rs:199-245,
src/puback.rs:162-180, src/pubrec.rs:157-175, src/pubrel.rs:156-174, src/pubcomp.rs:155-173,
src/subscribe.rs:237-257, src/suback.rs:134-152, src/unsubscribe.rs:125-138,
src/unsuback.rs:131-149, src/disconnect.rs:182-209. `step` is the body of the `match`, given
the identifier byte, its `PropertyType`, the locals and the cursor. The first argument is
fuel. -/
def propLoop {σ : Type} (step : UInt8 → PropertyType → σ → Nat → M (σ × Nat))
    (properties_len : Nat) : (fuel cursor : Nat) → σ → M σ
  | 0, _, _ => fun b => (.diverge, b)
  | fuel + 1, cursor, s =>
    if cursor < properties_len then do
      let prop ← read_u8
      let cursor := cursor + 1
      let ty ← liftOut (property prop)
      let (s, cursor) ← step prop ty s cursor
      propLoop step properties_len fuel cursor s
    else pure s

/-- The common frame of the thirteen property readers (for example src/puback.rs:150-186):
length prefix, `None` for an empty section, otherwise the loop with `cursor = 0`. Every
iteration removes at least one byte, hence the fuel. -/
def readProps {σ : Type} (step : UInt8 → PropertyType → σ → Nat → M (σ × Nat)) (init : σ) :
    M (Option σ) := do
  let (properties_len_len, properties_len) ← lengthM
  advance properties_len_len
  if properties_len = 0 then pure none
  else do
    let bytes ← getBuf
    let s ← propLoop step properties_len (bytes.length + 1) 0 init
    pure (some s)

/-- `for (key, value) in &self.user_properties { len += 1 + 2 + key.len() + 2 + value.len() }`,
for example src/puback.rs:143-145: the amount added to `len`. -/
def userPropsLen (ups : List (MqttString × MqttString)) : Nat :=
  ups.foldl (fun len kv => len + (1 + 2 + kv.1.length + 2 + kv.2.length)) 0

/-- `if let Some(v) = &field { len += 1 + 2 + v.len() }`, for example src/puback.rs:139-141. -/
def optStrLen (o : Option Bytes) : Nat :=
  match o with
  | some v => 1 + 2 + v.length
  | none => 0

/-- `if field.is_some() { len += 1 + n }`, for example src/connect.rs:257-259. -/
def optLen {α : Type} (o : Option α) (n : Nat) : Nat := if o.isSome then 1 + n else 0

/-- `for (key, value) in &self.user_properties { put_u8(UserProperty); write key; write value }`,
for example src/puback.rs:197-201. -/
def writeUserProps : List (MqttString × MqttString) → M Unit
  | [] => pure ()
  | (key, value) :: rest => do
    putU8 PropertyType.UserProperty.toU8
    write_mqtt_string key
    write_mqtt_string value
    writeUserProps rest

/-- `if let Some(v) = &field { put_u8(ty); write_mqtt_string(buffer, v)? }` (or
`write_mqtt_bytes`, which is the same function on bytes), for example src/puback.rs:192-195. -/
def writeOptStr (ty : PropertyType) : Option Bytes → M Unit
  | some v => do putU8 ty.toU8; write_mqtt_string v
  | none => pure ()

/-- `if let Some(v) = field { put_u8(ty); put_u8(v) }`, for example src/connack.rs:358-361. -/
def writeOptU8 (ty : PropertyType) : Option UInt8 → M Unit
  | some v => do putU8 ty.toU8; putU8 v
  | none => pure ()

/-- `if let Some(v) = field { put_u8(ty); put_u16(v) }`, for example src/connack.rs:353-356. -/
def writeOptU16 (ty : PropertyType) : Option UInt16 → M Unit
  | some v => do putU8 ty.toU8; putU16 v
  | none => pure ()

/-- `if let Some(v) = field { put_u8(ty); put_u32(v) }`, for example src/connack.rs:348-351. -/
def writeOptU32 (ty : PropertyType) : Option UInt32 → M Unit
  | some v => do putU8 ty.toU8; putU32 v
  | none => pure ()

/-- `match properties { Some(p) => p.write(buffer)?, None => write_remaining_length(buffer, 0)? }`,
for example src/puback.rs:119-123. -/
def writeOptProps {σ : Type} (write : σ → M Unit) : Option σ → M Unit
  | some p => write p
  | none => do let _ ← write_remaining_length 0; pure ()

/-- The length contribution of an optional property section
(`len_len(p.len()) + p.len()`, or 1 if absent), for example src/puback.rs:60-67. -/
def optPropsLen {σ : Type} (plen : σ → Nat) : Option σ → Nat
  | some p => len_len (plen p) + plen p
  | none => 1

/-- Runs a reader that takes its `Bytes` by value. -/
def onOwned {α : Type} (bytes : Bytes) (m : M α) : M α := liftOut (m bytes).1

end Mqtt
