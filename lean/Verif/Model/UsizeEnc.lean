import Verif.Model.Packet
import Verif.Model.Usize
/-
The arithmetic on `usize` in the encoder, on a target whose `usize` has `w` bits. In the rest of the
model `usize` is `Nat`. The encoder computes lengths in the functions `len` and `size` (here
repeated, statement by statement); the other places are `1 + count + len`, `flags_index` and
`count + 1` with `count` at most 4, and divisions.
-/
namespace Mqtt

/-- With overflow checks (debug) an overflowing addition panics, without (release) it wraps. -/
inductive Build
  | debug | release

/-- `a + b` in `usize`. -/
def addB (m : Build) (w a b : Nat) : Out Nat :=
  if a + b < 2 ^ w then .ok (a + b)
  else
    match m with
    | .debug => .panic
    | .release => .ok ((a + b) % 2 ^ w)

/-- `a + b + c + ...`, from left to right. -/
def sumB (m : Build) (w a : Nat) : List Nat → Out Nat
  | [] => .ok a
  | b :: bs => do
    let a ← addB m w a b
    sumB m w a bs

/-- src/lib.rs:317-324 `FixedHeader::new`, with `usize` of `w` bits. -/
def FixedHeader.newB (m : Build) (w : Nat) (byte1 : UInt8) (remaining_len_len remaining_len : Nat) :
    Out FixedHeader := do
  let fixed_header_len ← addB m w remaining_len_len 1
  .ok { byte1 := byte1, fixed_header_len := fixed_header_len, remaining_len := remaining_len }

/-- src/lib.rs:350-352 `FixedHeader::frame_length`, with `usize` of `w` bits. -/
def FixedHeader.frame_lengthB (m : Build) (w : Nat) (fh : FixedHeader) : Out Nat :=
  addB m w fh.fixed_header_len fh.remaining_len

/-- `len += a + b + c + ...`. -/
def incB (m : Build) (w len a : Nat) (bs : List Nat) : Out Nat := do
  let s ← sumB m w a bs
  addB m w len s

/-- `for (key, value) in &self.user_properties { len += 1 + 2 + key.len() + 2 + value.len() }`, for
example src/puback.rs:143-145. -/
def userPropsLenB (m : Build) (w : Nat) (ups : List (MqttString × MqttString)) (len : Nat) :
    Out Nat :=
  match ups with
  | [] => .ok len
  | kv :: ups => do
    let len ← incB m w len 1 [2, kv.1.length, 2, kv.2.length]
    userPropsLenB m w ups len

/-- `if let Some(v) = &field { len += 1 + 2 + v.len() }`, for example src/puback.rs:139-141. -/
def optStrLenB (m : Build) (w : Nat) (o : Option Bytes) (len : Nat) : Out Nat :=
  match o with
  | some v => incB m w len 1 [2, v.length]
  | none => .ok len

/-- `if field.is_some() { len += 1 + n }`, for example src/connect.rs:257-259. -/
def optLenB {α : Type} (m : Build) (w : Nat) (o : Option α) (n len : Nat) : Out Nat :=
  if o.isSome then incB m w len 1 [n] else .ok len

/-- `for id in &self.subscription_identifiers { len += 1 + len_len(*id) }`, src/publish.rs:170-172. -/
def subIdsLenB (m : Build) (w : Nat) (ids : List Nat) (len : Nat) : Out Nat :=
  match ids with
  | [] => .ok len
  | id :: ids => do
    let len ← incB m w len 1 [len_len id]
    subIdsLenB m w ids len

/-- The optional property section, for example src/puback.rs:60-67. -/
def optPropsLenB {σ : Type} (m : Build) (w : Nat) (plen : σ → Out Nat) (o : Option σ) (len : Nat) :
    Out Nat :=
  match o with
  | some p => do
    let properties_len ← plen p
    incB m w len (len_len properties_len) [properties_len]
  | none => addB m w len 1

/-- src/connect.rs:254-294 `ConnectProperties::len`. -/
def ConnectProperties.lenB (m : Build) (w : Nat) (p : ConnectProperties) : Out Nat := do
  let len := 0
  let len ← optLenB m w p.session_expiry_interval 4 len
  let len ← optLenB m w p.receive_maximum 2 len
  let len ← optLenB m w p.max_packet_size 4 len
  let len ← optLenB m w p.topic_alias_max 2 len
  let len ← optLenB m w p.request_response_info 1 len
  let len ← optLenB m w p.request_problem_info 1 len
  let len ← userPropsLenB m w p.user_properties len
  let len ← optStrLenB m w p.authentication_method len
  let len ← optStrLenB m w p.authentication_data len
  .ok len

/-- src/connect.rs:442-474 `LastWillProperties::len`. -/
def LastWillProperties.lenB (m : Build) (w : Nat) (p : LastWillProperties) : Out Nat := do
  let len := 0
  let len ← optLenB m w p.delay_interval 4 len
  let len ← optLenB m w p.payload_format_indicator 1 len
  let len ← optLenB m w p.message_expiry_interval 4 len
  let len ← optStrLenB m w p.content_type len
  let len ← optStrLenB m w p.response_topic len
  let len ← optStrLenB m w p.correlation_data len
  let len ← userPropsLenB m w p.user_properties len
  .ok len

/-- src/connack.rs:136-208 `ConnAckProperties::len`. -/
def ConnAckProperties.lenB (m : Build) (w : Nat) (p : ConnAckProperties) : Out Nat := do
  let len := 0
  let len ← optLenB m w p.session_expiry_interval 4 len
  let len ← optLenB m w p.receive_max 2 len
  let len ← optLenB m w p.max_qos 1 len
  let len ← optLenB m w p.retain_available 1 len
  let len ← optLenB m w p.max_packet_size 4 len
  let len ← optStrLenB m w p.assigned_client_identifier len
  let len ← optLenB m w p.topic_alias_max 2 len
  let len ← optStrLenB m w p.reason_string len
  let len ← userPropsLenB m w p.user_properties len
  let len ← optLenB m w p.wildcard_subscription_available 1 len
  let len ← optLenB m w p.subscription_identifiers_available 1 len
  let len ← optLenB m w p.shared_subscription_available 1 len
  let len ← optLenB m w p.server_keep_alive 2 len
  let len ← optStrLenB m w p.response_information len
  let len ← optStrLenB m w p.server_reference len
  let len ← optStrLenB m w p.authentication_method len
  let len ← optStrLenB m w p.authentication_data len
  .ok len

/-- src/publish.rs:143-179 `PublishProperties::len`. -/
def PublishProperties.lenB (m : Build) (w : Nat) (p : PublishProperties) : Out Nat := do
  let len := 0
  let len ← optLenB m w p.payload_format_indicator 1 len
  let len ← optLenB m w p.message_expiry_interval 4 len
  let len ← optLenB m w p.topic_alias 2 len
  let len ← optStrLenB m w p.response_topic len
  let len ← optStrLenB m w p.correlation_data len
  let len ← userPropsLenB m w p.user_properties len
  let len ← subIdsLenB m w p.subscription_identifiers len
  let len ← optStrLenB m w p.content_type len
  .ok len

/-- src/puback.rs:136-148 `PubAckProperties::len`. -/
def PubAckProperties.lenB (m : Build) (w : Nat) (p : PubAckProperties) : Out Nat := do
  let len := 0
  let len ← optStrLenB m w p.reason_string len
  let len ← userPropsLenB m w p.user_properties len
  .ok len

/-- src/pubrec.rs:131-143 `PubRecProperties::len`. -/
def PubRecProperties.lenB (m : Build) (w : Nat) (p : PubRecProperties) : Out Nat := do
  let len := 0
  let len ← optStrLenB m w p.reason_string len
  let len ← userPropsLenB m w p.user_properties len
  .ok len

/-- src/pubrel.rs:130-142 `PubRelProperties::len`. -/
def PubRelProperties.lenB (m : Build) (w : Nat) (p : PubRelProperties) : Out Nat := do
  let len := 0
  let len ← optStrLenB m w p.reason_string len
  let len ← userPropsLenB m w p.user_properties len
  .ok len

/-- src/pubcomp.rs:129-141 `PubCompProperties::len`. -/
def PubCompProperties.lenB (m : Build) (w : Nat) (p : PubCompProperties) : Out Nat := do
  let len := 0
  let len ← optStrLenB m w p.reason_string len
  let len ← userPropsLenB m w p.user_properties len
  .ok len

/-- src/subscribe.rs:210-222 `SubscribeProperties::len`. -/
def SubscribeProperties.lenB (m : Build) (w : Nat) (p : SubscribeProperties) : Out Nat := do
  let len := 0
  let len ←
    (match p.id with
     | some id => incB m w len 1 [len_len id]
     | none => .ok len)
  let len ← userPropsLenB m w p.user_properties len
  .ok len

/-- src/suback.rs:108-120 `SubAckProperties::len`. -/
def SubAckProperties.lenB (m : Build) (w : Nat) (p : SubAckProperties) : Out Nat := do
  let len := 0
  let len ← optStrLenB m w p.reason_string len
  let len ← userPropsLenB m w p.user_properties len
  .ok len

/-- src/unsubscribe.rs:103-111 `UnsubscribeProperties::len`. -/
def UnsubscribeProperties.lenB (m : Build) (w : Nat) (p : UnsubscribeProperties) : Out Nat := do
  let len := 0
  let len ← userPropsLenB m w p.user_properties len
  .ok len

/-- src/unsuback.rs:105-117 `UnsubAckProperties::len`. -/
def UnsubAckProperties.lenB (m : Build) (w : Nat) (p : UnsubAckProperties) : Out Nat := do
  let len := 0
  let len ← optStrLenB m w p.reason_string len
  let len ← userPropsLenB m w p.user_properties len
  .ok len

/-- src/disconnect.rs:143-163 `DisconnectProperties::len`. -/
def DisconnectProperties.lenB (m : Build) (w : Nat) (p : DisconnectProperties) : Out Nat := do
  let len := 0
  let len ← optLenB m w p.session_expiry_interval 4 len
  let len ← optStrLenB m w p.reason_string len
  let len ← userPropsLenB m w p.user_properties len
  let len ← optStrLenB m w p.server_reference len
  .ok len

/-- The common end of the functions `size`: `1 + remaining_len_size + len`. -/
def sizeB (m : Build) (w len : Nat) : Out Nat := sumB m w 1 [len_len len, len]

/-- src/connect.rs:367-381 `LastWill::len`. -/
def LastWill.lenB (m : Build) (w : Nat) (l : LastWill) : Out Nat := do
  let len := 0
  let len ← optPropsLenB m w (LastWillProperties.lenB m w) l.properties len
  incB m w len 2 [l.topic.length, 2, l.message.length]

/-- src/connect.rs:621-633 `Login::len`. -/
def Login.lenB (m : Build) (w : Nat) (l : Login) : Out Nat := do
  let len := 0
  let len ← (if l.username.isEmpty then .ok len else incB m w len 2 [l.username.length])
  if l.password.isEmpty then .ok len else incB m w len 2 [l.password.length]

/-- src/connect.rs:62-90 `Connect::len`. -/
def Connect.lenB (m : Build) (w : Nat) (c : Connect) (will : Option LastWill) (l : Option Login) :
    Out Nat := do
  let len ← sumB m w 2 [protocolName.length, 1, 1, 2]
  let len ← optPropsLenB m w (ConnectProperties.lenB m w) c.properties len
  let len ← incB m w len 2 [c.client_id.length]
  let len ←
    (match will with
     | some x => do
       let n ← x.lenB m w
       addB m w len n
     | none => .ok len)
  match l with
  | some x => do
    let n ← x.lenB m w
    addB m w len n
  | none => .ok len

/-- src/connack.rs:50-63 `ConnAck::len`. -/
def ConnAck.lenB (m : Build) (w : Nat) (p : ConnAck) : Out Nat := do
  let len ← sumB m w 1 [1]
  optPropsLenB m w (ConnAckProperties.lenB m w) p.properties len

/-- src/connack.rs:65-70 `ConnAck::size`. -/
def ConnAck.sizeB (m : Build) (w : Nat) (p : ConnAck) : Out Nat := do
  let len ← p.lenB m w
  Mqtt.sizeB m w len

/-- src/publish.rs:45-62 `Publish::len`. -/
def Publish.lenB (m : Build) (w : Nat) (p : Publish) : Out Nat := do
  let len ← sumB m w 2 [p.topic.length]
  let len ← (if p.qos ≠ .AtMostOnce ∧ p.pkid ≠ 0 then addB m w len 2 else .ok len)
  let len ← optPropsLenB m w (PublishProperties.lenB m w) p.properties len
  addB m w len p.payload.length

/-- src/publish.rs:38-43 `Publish::size`. -/
def Publish.sizeB (m : Build) (w : Nat) (p : Publish) : Out Nat := do
  let len ← p.lenB m w
  Mqtt.sizeB m w len

/-- src/puback.rs:52-70 `PubAck::len`. -/
def PubAck.lenB (m : Build) (w : Nat) (p : PubAck) : Out Nat := do
  let len ← sumB m w 2 [1]
  if p.reason = .Success ∧ p.properties = none then .ok 2
  else optPropsLenB m w (PubAckProperties.lenB m w) p.properties len

/-- src/puback.rs:42-50 `PubAck::size`. -/
def PubAck.sizeB (m : Build) (w : Nat) (p : PubAck) : Out Nat :=
  if p.reason = .Success ∧ p.properties = none then .ok 4
  else do
    let len ← p.lenB m w
    Mqtt.sizeB m w len

/-- src/pubrec.rs:50-69 `PubRec::len`. -/
def PubRec.lenB (m : Build) (w : Nat) (p : PubRec) : Out Nat := do
  let len ← sumB m w 2 [1]
  if p.reason = .Success ∧ p.properties = none then .ok 2
  else optPropsLenB m w (PubRecProperties.lenB m w) p.properties len

/-- src/pubrec.rs:43-48 `PubRec::size`. -/
def PubRec.sizeB (m : Build) (w : Nat) (p : PubRec) : Out Nat := do
  let len ← p.lenB m w
  Mqtt.sizeB m w len

/-- src/pubrel.rs:48-67 `PubRel::len`. -/
def PubRel.lenB (m : Build) (w : Nat) (p : PubRel) : Out Nat := do
  let len ← sumB m w 2 [1]
  if p.reason = .Success ∧ p.properties = none then .ok 2
  else optPropsLenB m w (PubRelProperties.lenB m w) p.properties len

/-- src/pubrel.rs:36-46 `PubRel::size`. -/
def PubRel.sizeB (m : Build) (w : Nat) (p : PubRel) : Out Nat :=
  if p.reason = .Success ∧ p.properties = none then .ok 4
  else do
    let len ← p.lenB m w
    Mqtt.sizeB m w len

/-- src/pubcomp.rs:46-65 `PubComp::len`. -/
def PubComp.lenB (m : Build) (w : Nat) (p : PubComp) : Out Nat := do
  let len ← sumB m w 2 [1]
  if p.reason = .Success ∧ p.properties = none then .ok 2
  else optPropsLenB m w (PubCompProperties.lenB m w) p.properties len

/-- src/pubcomp.rs:36-44 `PubComp::size`. -/
def PubComp.sizeB (m : Build) (w : Nat) (p : PubComp) : Out Nat :=
  if p.reason = .Success ∧ p.properties = none then .ok 4
  else do
    let len ← p.lenB m w
    Mqtt.sizeB m w len

/-- src/subscribe.rs:126-129 `Filter::len`. -/
def Filter.lenB (m : Build) (w : Nat) (f : Filter) : Out Nat := sumB m w 2 [f.path.length, 1]

/-- src/subscribe.rs:47, `fold(0, |s, t| s + t.len())`. -/
def filtersLenB (m : Build) (w : Nat) (l : List Filter) (s : Nat) : Out Nat :=
  match l with
  | [] => .ok s
  | t :: l => do
    let n ← t.lenB m w
    let s ← addB m w s n
    filtersLenB m w l s

/-- src/subscribe.rs:46-59 `Subscribe::len`. -/
def Subscribe.lenB (m : Build) (w : Nat) (p : Subscribe) : Out Nat := do
  let n ← filtersLenB m w p.filters 0
  let len ← addB m w 2 n
  optPropsLenB m w (SubscribeProperties.lenB m w) p.properties len

/-- src/subscribe.rs:39-44 `Subscribe::size`. -/
def Subscribe.sizeB (m : Build) (w : Nat) (p : Subscribe) : Out Nat := do
  let len ← p.lenB m w
  Mqtt.sizeB m w len

/-- src/suback.rs:18-31 `SubAck::len`. -/
def SubAck.lenB (m : Build) (w : Nat) (p : SubAck) : Out Nat := do
  let len ← sumB m w 2 [p.return_codes.length]
  optPropsLenB m w (SubAckProperties.lenB m w) p.properties len

/-- src/suback.rs:34-39 `SubAck::size`. -/
def SubAck.sizeB (m : Build) (w : Nat) (p : SubAck) : Out Nat := do
  let len ← p.lenB m w
  Mqtt.sizeB m w len

/-- src/unsubscribe.rs:37, `fold(0, |s, t| 2 + s + t.len())`. -/
def topicsLenB (m : Build) (w : Nat) (l : List MqttString) (s : Nat) : Out Nat :=
  match l with
  | [] => .ok s
  | t :: l => do
    let s ← sumB m w 2 [s, t.length]
    topicsLenB m w l s

/-- src/unsubscribe.rs:34-49 `Unsubscribe::len`. -/
def Unsubscribe.lenB (m : Build) (w : Nat) (p : Unsubscribe) : Out Nat := do
  let n ← topicsLenB m w p.filters 0
  let len ← addB m w 2 n
  optPropsLenB m w (UnsubscribeProperties.lenB m w) p.properties len

/-- src/unsubscribe.rs:27-32 `Unsubscribe::size`. -/
def Unsubscribe.sizeB (m : Build) (w : Nat) (p : Unsubscribe) : Out Nat := do
  let len ← p.lenB m w
  Mqtt.sizeB m w len

/-- src/unsuback.rs:18-31 `UnsubAck::len`. -/
def UnsubAck.lenB (m : Build) (w : Nat) (p : UnsubAck) : Out Nat := do
  let len ← sumB m w 2 [p.reasons.length]
  optPropsLenB m w (UnsubAckProperties.lenB m w) p.properties len

/-- src/unsuback.rs:34-39 `UnsubAck::size`. -/
def UnsubAck.sizeB (m : Build) (w : Nat) (p : UnsubAck) : Out Nat := do
  let len ← p.lenB m w
  Mqtt.sizeB m w len

/-- src/disconnect.rs:259-279 `Disconnect::len`. -/
def Disconnect.lenB (m : Build) (w : Nat) (d : Disconnect) : Out Nat :=
  if d.reason_code = .NormalDisconnection ∧ d.properties = none then .ok 2
  else do
    let length := 0
    match d.properties with
    | some properties => do
      let length ← addB m w length 1
      let properties_len ← properties.lenB m w
      incB m w length (len_len properties_len) [properties_len]
    | none => addB m w length 1

/-- src/disconnect.rs:282-291 `Disconnect::size`. -/
def Disconnect.sizeB (m : Build) (w : Nat) (d : Disconnect) : Out Nat := do
  let len ← d.lenB m w
  if len = 2 then .ok len else Mqtt.sizeB m w len

/-- The remaining length that `Packet::write` (src/lib.rs:218-235) puts into the fixed header: the
`len` of the packet, computed in the first line of its `write`, for example src/publish.rs:99. The
exceptions: src/ping.rs:9 and 19 write the byte 0, and so does src/disconnect.rs:326-329 if `len`
is 2. -/
def Packet.remainingB (m : Build) (w : Nat) : Packet → Out Nat
  | .Connect c will l => c.lenB m w will l
  | .ConnAck p => p.lenB m w
  | .Publish p => p.lenB m w
  | .PubAck p => p.lenB m w
  | .PubRec p => p.lenB m w
  | .PubRel p => p.lenB m w
  | .PubComp p => p.lenB m w
  | .Subscribe p => p.lenB m w
  | .SubAck p => p.lenB m w
  | .Unsubscribe p => p.lenB m w
  | .UnsubAck p => p.lenB m w
  | .PingReq => .ok 0
  | .PingResp => .ok 0
  | .Disconnect p => do
    let length ← p.lenB m w
    if length = 2 then .ok 0 else .ok length

end Mqtt
