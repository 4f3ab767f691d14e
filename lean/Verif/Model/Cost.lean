import Verif.Model.Packet
/-
The decoder once more, with a counter for the iterations of its loops: the loop over the bytes of a
variable byte integer (`length`), the thirteen property loops and the four loops over the entries of
a list (`Filter::read`, `Unsubscribe::read`, `SubAck::read`, `UnsubAck::read`). All other code of the
decoder is straight-line. The definitions are those of the rest of the model with `tick` at the
beginning of each loop body; what they compute is compared with the rest of the model by
`C55_same`. Not counted is the work of library calls on one string (copying it and checking that it
is UTF-8), which is linear in the bytes of that string.
-/
namespace Mqtt

/-- Outcome, final buffer and number of loop iterations executed. -/
def MC (α : Type) : Type := Bytes → (Out α × Bytes) × Nat

namespace MC

/-- `Ok(a)`: no iteration. -/
def pure {α : Type} (a : α) : MC α := fun b => ((.ok a, b), 0)

/-- Sequencing with `?`: the iterations of both parts, or of the first if it fails. -/
def bind {α β : Type} (m : MC α) (f : α → MC β) : MC β := fun b =>
  match m b with
  | ((.ok a, b'), n) => ((f a b').1, n + (f a b').2)
  | ((.err e, b'), n) => ((.err e, b'), n)
  | ((.panic, b'), n) => ((.panic, b'), n)
  | ((.diverge, b'), n) => ((.diverge, b'), n)

instance : Monad MC where
  pure := MC.pure
  bind := MC.bind

/-- Code without loops. -/
def lift {α : Type} (m : M α) : MC α := fun b => (m b, 0)

/-- The beginning of a loop body. -/
def tick : MC Unit := fun b => ((.ok (), b), 1)

end MC

open MC (lift tick)

/-- src/lib.rs:449-473, the loop of `fn length`, with the number of its iterations. -/
def lengthLoopC : Bytes → (len len_len shift : Nat) → Out (Nat × Nat) × Nat
  | [], _, _, _ => (.err (.InsufficientBytes 1), 0)
  | b :: bs, len, len_len, shift =>
    let len_len := len_len + 1
    let byte := b.toNat
    let len := len + ((byte &&& 0x7F) <<< shift)
    if (byte &&& 0x80) = 0 then (.ok (len_len, len), 1)
    else
      let shift := shift + 7
      if shift > 21 then (.err .MalformedRemainingLength, 1)
      else
        let r := lengthLoopC bs len len_len shift
        (r.1, r.2 + 1)

/-- src/lib.rs:439-476 `fn length`. -/
def lengthC (stream : Bytes) : Out (Nat × Nat) × Nat := lengthLoopC stream 0 0 0

/-- `length(bytes.iter())?`. -/
def lengthMC : MC (Nat × Nat) := fun b => (((lengthC b).1, b), (lengthC b).2)

/-- src/lib.rs:423-434 `parse_fixed_header`. -/
def parse_fixed_headerC (stream : Bytes) : Out FixedHeader × Nat :=
  let stream_len := stream.length
  if stream_len < 2 then (.err (.InsufficientBytes (2 - stream_len)), 0)
  else
    match stream with
    | [] => (.panic, 0)
    | byte1 :: stream =>
      match lengthC stream with
      | (.ok (len_len, len), n) => (.ok (FixedHeader.new byte1 len_len len), n)
      | (.err e, n) => (.err e, n)
      | (.panic, n) => (.panic, n)
      | (.diverge, n) => (.diverge, n)

/-- src/lib.rs:395-420 `check`. -/
def checkC (stream : Bytes) (max_packet_size : Option Nat) : Out FixedHeader × Nat :=
  let stream_len := stream.length
  match parse_fixed_headerC stream with
  | (.err e, n) => (.err e, n)
  | (.panic, n) => (.panic, n)
  | (.diverge, n) => (.diverge, n)
  | (.ok fixed_header, n) =>
    let too_big : Option Nat :=
      match max_packet_size with
      | some max_size => if fixed_header.remaining_len > max_size then some max_size else none
      | none => none
    match too_big with
    | some max_size => (.err (.PayloadSizeLimitExceeded fixed_header.remaining_len max_size), n)
    | none =>
      let frame_length := fixed_header.frame_length
      if stream_len < frame_length then (.err (.InsufficientBytes (frame_length - stream_len)), n)
      else (.ok fixed_header, n)

/-- `check(stream.iter(), max_size)?`. -/
def checkMC (stream : Bytes) (max_packet_size : Option Nat) : MC FixedHeader := fun b =>
  (((checkC stream max_packet_size).1, b), (checkC stream max_packet_size).2)

/-- The property loop (see `propLoop`). -/
def propLoopC {σ : Type} (step : UInt8 → PropertyType → σ → Nat → MC (σ × Nat))
    (properties_len : Nat) : (fuel cursor : Nat) → σ → MC σ
  | 0, _, _ => fun b => ((.diverge, b), 0)
  | fuel + 1, cursor, s =>
    if cursor < properties_len then do
      tick
      let prop ← lift read_u8
      let cursor := cursor + 1
      let ty ← lift (liftOut (property prop))
      let (s, cursor) ← step prop ty s cursor
      propLoopC step properties_len fuel cursor s
    else pure s

/-- The property section (see `readProps`). -/
def readPropsC {σ : Type} (step : UInt8 → PropertyType → σ → Nat → MC (σ × Nat)) (init : σ) :
    MC (Option σ) := do
  let (properties_len_len, properties_len) ← lengthMC
  lift (advance properties_len_len)
  if properties_len = 0 then pure none
  else do
    let bytes ← lift getBuf
    let s ← propLoopC step properties_len (bytes.length + 1) 0 init
    pure (some s)

/-- The `match` of a property loop that contains no loop (all but those of `PublishProperties::read`
and `SubscribeProperties::read`). -/
def plain {σ : Type} (step : UInt8 → PropertyType → σ → Nat → M (σ × Nat)) :
    UInt8 → PropertyType → σ → Nat → MC (σ × Nat) :=
  fun prop ty s cursor => lift (step prop ty s cursor)

/-- src/publish.rs:203-244, the `match` of `PublishProperties::read`, which calls `length` for a
subscription identifier. -/
def PublishProperties.stepC (mode : StrMode) (prop : UInt8) (ty : PropertyType)
    (s : PublishProperties) (cursor : Nat) : MC (PublishProperties × Nat) :=
  match ty with
  | .SubscriptionIdentifier => do
    let (id_len, id) ← lengthMC
    let cursor := cursor + (1 + id_len)
    lift (advance id_len)
    pure ({ s with subscription_identifiers := s.subscription_identifiers ++ [id] }, cursor)
  | ty => lift (PublishProperties.step mode prop ty s cursor)

/-- src/subscribe.rs:241-256, the `match` of `SubscribeProperties::read`, which calls `length` for a
subscription identifier. -/
def SubscribeProperties.stepC (mode : StrMode) (prop : UInt8) (ty : PropertyType)
    (s : SubscribeProperties) (cursor : Nat) : MC (SubscribeProperties × Nat) :=
  match ty with
  | .SubscriptionIdentifier => do
    let (id_len, sub_id) ← lengthMC
    let cursor := cursor + (1 + id_len)
    lift (advance id_len)
    pure ({ s with id := some sub_id }, cursor)
  | ty => lift (SubscribeProperties.step mode prop ty s cursor)

/-- The `while bytes.has_remaining()` loops: src/subscribe.rs:135-161, src/unsubscribe.rs:59-62,
src/suback.rs:53-56, src/unsuback.rs:53-56; `one` reads one entry. -/
def listLoopC {α : Type} (one : M α) : (fuel : Nat) → List α → MC (List α)
  | 0, _ => fun b => ((.diverge, b), 0)
  | fuel + 1, acc => do
    let bytes ← lift getBuf
    if bytes.isEmpty then pure acc
    else do
      tick
      let x ← lift one
      listLoopC one fuel (acc ++ [x])

/-- src/connect.rs:383-408 `LastWill::read`. -/
def LastWill.readC (mode : StrMode) (connect_flags : UInt8) : MC (Option LastWill) :=
  if connect_flags &&& 0b100 = 0 then
    if connect_flags &&& 0b00111000 ≠ 0 then lift (throwE .IncorrectPacketFormat)
    else pure none
  else do
    let properties ← readPropsC (plain (LastWillProperties.step mode)) LastWillProperties.init
    let will_topic ← lift read_mqtt_bytes
    let will_message ← lift read_mqtt_bytes
    let qos_num := (connect_flags &&& 0b11000) >>> 3
    let will_qos ← lift (qosOrErr qos_num)
    pure (some { topic := will_topic, message := will_message, qos := will_qos,
                 retain := (connect_flags &&& 0b00100000) != 0, properties := properties })

/-- src/connect.rs:24-60 `Connect::read`. -/
def Connect.readC (mode : StrMode) (fixed_header : FixedHeader) :
    MC (Connect × Option LastWill × Option Login) := do
  lift (advance fixed_header.fixed_header_len)
  let protocol_name ← lift (read_mqtt_string mode)
  let protocol_level ← lift read_u8
  if protocol_name ≠ protocolName then lift (throwE .InvalidProtocol)
  else if protocol_level ≠ 5 then lift (throwE (.InvalidProtocolLevel protocol_level))
  else do
    let connect_flags ← lift read_u8
    let clean_start : Bool := (connect_flags &&& 0b10) != 0
    let keep_alive ← lift read_u16
    let properties ← readPropsC (plain (ConnectProperties.step mode)) ConnectProperties.init
    let client_id ← lift (read_mqtt_string mode)
    let will ← LastWill.readC mode connect_flags
    let login ← lift (Login.read mode connect_flags)
    pure ({ keep_alive := keep_alive, client_id := client_id, clean_start := clean_start,
            properties := properties }, will, login)

/-- src/connack.rs:72-89 `ConnAck::read`. -/
def ConnAck.readC (mode : StrMode) (fixed_header : FixedHeader) : MC ConnAck := do
  lift (advance fixed_header.fixed_header_len)
  let flags ← lift read_u8
  let return_code ← lift read_u8
  let properties ← readPropsC (plain (ConnAckProperties.step mode)) ConnAckProperties.init
  let session_present : Bool := (flags &&& 0x01) == 1
  let code ← lift (liftOut (ConnectReturnCode.ofU8 return_code))
  pure { session_present := session_present, code := code, properties := properties }

/-- src/publish.rs:64-96 `Publish::read`. -/
def Publish.readC (mode : StrMode) (fixed_header : FixedHeader) : MC Publish := do
  let qos_num := (fixed_header.byte1 &&& 0b0110) >>> 1
  let qos ← lift (qosOrErr qos_num)
  let dup : Bool := (fixed_header.byte1 &&& 0b1000) != 0
  let retain : Bool := (fixed_header.byte1 &&& 0b0001) != 0
  lift (advance fixed_header.fixed_header_len)
  let topic ← lift (read_mqtt_string mode)
  let pkid ← lift
    (match qos with
    | .AtMostOnce => pure 0
    | .AtLeastOnce | .ExactlyOnce => read_u16)
  if qos ≠ .AtMostOnce ∧ pkid = 0 then lift (throwE .PacketIdZero)
  else do
    let properties ← readPropsC (PublishProperties.stepC mode) PublishProperties.init
    let bytes ← lift getBuf
    pure { dup := dup, retain := retain, qos := qos, pkid := pkid, topic := topic,
           payload := bytes, properties := properties }

/-- src/puback.rs:72-104 `PubAck::read`. -/
def PubAck.readC (mode : StrMode) (fixed_header : FixedHeader) : MC PubAck := do
  lift (advance fixed_header.fixed_header_len)
  let pkid ← lift read_u16
  if fixed_header.remaining_len = 2 then
    pure { pkid := pkid, reason := .Success, properties := none }
  else do
    let ack_reason ← lift read_u8
    if fixed_header.remaining_len < 4 then do
      let reason ← lift (liftOut (PubAckReason.ofU8 ack_reason))
      pure { pkid := pkid, reason := reason, properties := none }
    else do
      let properties ← readPropsC (plain (PubAckProperties.step mode)) PubAckProperties.init
      let reason ← lift (liftOut (PubAckReason.ofU8 ack_reason))
      pure { pkid := pkid, reason := reason, properties := properties }

/-- src/pubrec.rs:71-99 `PubRec::read`. -/
def PubRec.readC (mode : StrMode) (fixed_header : FixedHeader) : MC PubRec := do
  lift (advance fixed_header.fixed_header_len)
  let pkid ← lift read_u16
  if fixed_header.remaining_len = 2 then
    pure { pkid := pkid, reason := .Success, properties := none }
  else do
    let ack_reason ← lift read_u8
    if fixed_header.remaining_len < 4 then do
      let reason ← lift (liftOut (PubRecReason.ofU8 ack_reason))
      pure { pkid := pkid, reason := reason, properties := none }
    else do
      let properties ← readPropsC (plain (PubRecProperties.step mode)) PubRecProperties.init
      let reason ← lift (liftOut (PubRecReason.ofU8 ack_reason))
      pure { pkid := pkid, reason := reason, properties := properties }

/-- src/pubrel.rs:69-98 `PubRel::read`. -/
def PubRel.readC (mode : StrMode) (fixed_header : FixedHeader) : MC PubRel := do
  lift (advance fixed_header.fixed_header_len)
  let pkid ← lift read_u16
  if fixed_header.remaining_len = 2 then
    pure { pkid := pkid, reason := .Success, properties := none }
  else do
    let ack_reason ← lift read_u8
    if fixed_header.remaining_len < 4 then do
      let reason ← lift (liftOut (PubRelReason.ofU8 ack_reason))
      pure { pkid := pkid, reason := reason, properties := none }
    else do
      let properties ← readPropsC (plain (PubRelProperties.step mode)) PubRelProperties.init
      let reason ← lift (liftOut (PubRelReason.ofU8 ack_reason))
      pure { pkid := pkid, reason := reason, properties := properties }

/-- src/pubcomp.rs:67-97 `PubComp::read`. -/
def PubComp.readC (mode : StrMode) (fixed_header : FixedHeader) : MC PubComp := do
  lift (advance fixed_header.fixed_header_len)
  let pkid ← lift read_u16
  if fixed_header.remaining_len = 2 then
    pure { pkid := pkid, reason := .Success, properties := none }
  else do
    let ack_reason ← lift read_u8
    if fixed_header.remaining_len < 4 then do
      let reason ← lift (liftOut (PubCompReason.ofU8 ack_reason))
      pure { pkid := pkid, reason := reason, properties := none }
    else do
      let properties ← readPropsC (plain (PubCompProperties.step mode)) PubCompProperties.init
      let reason ← lift (liftOut (PubCompReason.ofU8 ack_reason))
      pure { pkid := pkid, reason := reason, properties := properties }

/-- src/subscribe.rs:61-79 `Subscribe::read`. -/
def Subscribe.readC (mode : StrMode) (fixed_header : FixedHeader) : MC Subscribe := do
  lift (advance fixed_header.fixed_header_len)
  let pkid ← lift read_u16
  let properties ← readPropsC (SubscribeProperties.stepC mode) SubscribeProperties.init
  let bytes ← lift getBuf
  let filters ← listLoopC (Filter.readOne mode) (bytes.length + 1) []
  match filters.length with
  | 0 => lift (throwE .EmptySubscription)
  | _ => pure { pkid := pkid, filters := filters, properties := properties }

/-- src/suback.rs:54-55, the body of the loop. -/
def SubAck.readOne : M SubscribeReasonCode := do
  let c ← read_u8
  liftOut (SubscribeReasonCode.ofU8 c)

/-- src/suback.rs:41-65 `SubAck::read`. -/
def SubAck.readC (mode : StrMode) (fixed_header : FixedHeader) : MC SubAck := do
  lift (advance fixed_header.fixed_header_len)
  let pkid ← lift read_u16
  let properties ← readPropsC (plain (SubAckProperties.step mode)) SubAckProperties.init
  let bytes ← lift getBuf
  if bytes.isEmpty then lift (throwE .MalformedPacket)
  else do
    let codes ← listLoopC SubAck.readOne (bytes.length + 1) []
    pure { pkid := pkid, return_codes := codes, properties := properties }

/-- src/unsubscribe.rs:51-70 `Unsubscribe::read`. -/
def Unsubscribe.readC (mode : StrMode) (fixed_header : FixedHeader) : MC Unsubscribe := do
  lift (advance fixed_header.fixed_header_len)
  let pkid ← lift read_u16
  let properties ← readPropsC (plain (UnsubscribeProperties.step mode)) UnsubscribeProperties.init
  let bytes ← lift getBuf
  let filters ← listLoopC (read_mqtt_string mode) (bytes.length + 1) []
  pure { pkid := pkid, filters := filters, properties := properties }

/-- src/unsuback.rs:54-55, the body of the loop. -/
def UnsubAck.readOne : M UnsubAckReason := do
  let c ← read_u8
  liftOut (UnsubAckReason.ofU8 c)

/-- src/unsuback.rs:41-65 `UnsubAck::read`. -/
def UnsubAck.readC (mode : StrMode) (fixed_header : FixedHeader) : MC UnsubAck := do
  lift (advance fixed_header.fixed_header_len)
  let pkid ← lift read_u16
  let properties ← readPropsC (plain (UnsubAckProperties.step mode)) UnsubAckProperties.init
  let bytes ← lift getBuf
  if bytes.isEmpty then lift (throwE .MalformedPacket)
  else do
    let codes ← listLoopC UnsubAck.readOne (bytes.length + 1) []
    pure { pkid := pkid, reasons := codes, properties := properties }

/-- src/disconnect.rs:293-319 `Disconnect::read`. -/
def Disconnect.readC (mode : StrMode) (fixed_header : FixedHeader) : MC Disconnect := do
  let packet_type := fixed_header.byte1 >>> 4
  let flags := fixed_header.byte1 &&& 0b00001111
  lift (advance fixed_header.fixed_header_len)
  if packet_type ≠ PacketType.Disconnect.toU8 then lift (throwE (.InvalidPacketType packet_type))
  else if flags ≠ 0x00 then lift (throwE .MalformedPacket)
  else if fixed_header.remaining_len = 0 then pure (Disconnect.new .NormalDisconnection)
  else do
    let reason_code ← lift read_u8
    let reason_code ← lift (liftOut (DisconnectReasonCode.ofU8 reason_code))
    let properties ← readPropsC (plain (DisconnectProperties.step mode)) DisconnectProperties.init
    pure { reason_code := reason_code, properties := properties }

/-- Runs a reader that takes its `Bytes` by value (see `onOwned`). -/
def onOwnedC {α : Type} (bytes : Bytes) (m : MC α) : MC α := fun b =>
  (((m bytes).1.1, b), (m bytes).2)

namespace Packet

/-- src/lib.rs:162-213, decoding of one complete frame. -/
def readBodyC (mode : StrMode) (fixed_header : FixedHeader) (packet_type : PacketType)
    (packet : Bytes) : MC Packet :=
  match packet_type with
  | .Connect => do
    let (connect, will, login) ← onOwnedC packet (Mqtt.Connect.readC mode fixed_header)
    pure (.Connect connect will login)
  | .Publish => do
    let p ← onOwnedC packet (Mqtt.Publish.readC mode fixed_header)
    pure (.Publish p)
  | .Subscribe => do
    let p ← onOwnedC packet (Mqtt.Subscribe.readC mode fixed_header)
    pure (.Subscribe p)
  | .Unsubscribe => do
    let p ← onOwnedC packet (Mqtt.Unsubscribe.readC mode fixed_header)
    pure (.Unsubscribe p)
  | .ConnAck => do
    let p ← onOwnedC packet (Mqtt.ConnAck.readC mode fixed_header)
    pure (.ConnAck p)
  | .PubAck => do
    let p ← onOwnedC packet (Mqtt.PubAck.readC mode fixed_header)
    pure (.PubAck p)
  | .PubRec => do
    let p ← onOwnedC packet (Mqtt.PubRec.readC mode fixed_header)
    pure (.PubRec p)
  | .PubRel => do
    let p ← onOwnedC packet (Mqtt.PubRel.readC mode fixed_header)
    pure (.PubRel p)
  | .PubComp => do
    let p ← onOwnedC packet (Mqtt.PubComp.readC mode fixed_header)
    pure (.PubComp p)
  | .SubAck => do
    let p ← onOwnedC packet (Mqtt.SubAck.readC mode fixed_header)
    pure (.SubAck p)
  | .UnsubAck => do
    let p ← onOwnedC packet (Mqtt.UnsubAck.readC mode fixed_header)
    pure (.UnsubAck p)
  | .PingReq => pure .PingReq
  | .PingResp => pure .PingResp
  | .Disconnect => do
    let p ← onOwnedC packet (Mqtt.Disconnect.readC mode fixed_header)
    pure (.Disconnect p)

/-- src/lib.rs:146-216 `Packet::read`. -/
def readC (mode : StrMode) (max_size : Option Nat) : MC Packet := do
  let stream ← lift getBuf
  let fixed_header ← checkMC stream max_size
  let packet ← lift (splitTo fixed_header.frame_length)
  let packet_type ← lift (liftOut fixed_header.packet_type)
  if fixed_header.remaining_len = 0 ∧ packet_type ≠ .Disconnect then
    match packet_type with
    | .PingReq => pure .PingReq
    | .PingResp => pure .PingResp
    | _ => lift (throwE .PayloadRequired)
  else readBodyC mode fixed_header packet_type packet

end Packet

end Mqtt
