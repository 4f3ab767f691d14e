import Verif.Model.Cost
/-
The encoder once more, with a counter for the iterations of its loops: the loop of
`write_remaining_length`, and the loops over the lists of a packet in the functions `write` and
`len` (`for ... in`, `iter().fold`, `iter().map(..).collect()`). All other code of the encoder is
straight-line. What the definitions compute is compared with the rest of the model by `C58_same`. In
the functions `len` only the iterations are written out again (`ticks`), the value is that of the
rest of the model. Not counted is the copying of one field by the library, linear in its bytes.
-/
namespace Mqtt

open MC (lift tick)

/-- A loop over a list of `n` entries that does nothing but arithmetic. -/
def ticks (n : Nat) : MC Unit := fun b => ((.ok (), b), n)

/-- src/lib.rs:554-565, the loop of `write_remaining_length` (see `writeRemLoop`). -/
def writeRemLoopC : (fuel x count : Nat) → MC Nat
  | 0, _, _ => fun b => ((.diverge, b), 0)
  | fuel + 1, x, count => do
    tick
    let byte := UInt8.ofNat (x % 128)
    let x := x / 128
    let byte := if x > 0 then byte ||| 128 else byte
    lift (putU8 byte)
    let count := count + 1
    if x = 0 then pure count else writeRemLoopC fuel x count

/-- src/lib.rs:545-568 `write_remaining_length`. -/
def write_remaining_lengthC (len : Nat) : MC Nat :=
  if len > 268435455 then lift (throwE .PayloadTooLong) else writeRemLoopC 10 len 0

/-- The optional property section (see `writeOptProps`). -/
def writeOptPropsC {σ : Type} (write : σ → MC Unit) : Option σ → MC Unit
  | some p => write p
  | none => do let _ ← write_remaining_lengthC 0; pure ()

/-- The loop over the user properties (see `writeUserProps`). -/
def writeUserPropsC : List (MqttString × MqttString) → MC Unit
  | [] => pure ()
  | (k, v) :: rest => do
    tick
    lift (putU8 PropertyType.UserProperty.toU8)
    lift (write_mqtt_string k)
    lift (write_mqtt_string v)
    writeUserPropsC rest

/-- src/publish.rs:294-297, the loop over the subscription identifiers. -/
def writeSubIdsC : List Nat → MC Unit
  | [] => pure ()
  | id :: ids => do
    tick
    lift (putU8 PropertyType.SubscriptionIdentifier.toU8)
    let _ ← write_remaining_lengthC id
    writeSubIdsC ids

/-- src/subscribe.rs:99-101, the loop over the filters. -/
def Filter.writeAllC : List Filter → MC Unit
  | [] => pure ()
  | f :: fs => do
    tick
    lift f.write
    writeAllC fs

/-- src/unsubscribe.rs:89-91, the loop over the filters. -/
def Unsubscribe.writeFiltersC : List MqttString → MC Unit
  | [] => pure ()
  | f :: fs => do
    tick
    lift (write_mqtt_string f)
    writeFiltersC fs

/-- The iterations of `properties.len()`, none if there are no properties. -/
def optTicks {σ : Type} (n : σ → Nat) : Option σ → MC Unit
  | some p => ticks (n p)
  | none => ticks 0

/-- src/connect.rs:254-294 `ConnectProperties::len`. -/
def ConnectProperties.lenC (p : ConnectProperties) : MC Nat := do
  ticks p.user_properties.length
  pure p.len

/-- src/connect.rs:442-474 `LastWillProperties::len`. -/
def LastWillProperties.lenC (p : LastWillProperties) : MC Nat := do
  ticks p.user_properties.length
  pure p.len

/-- src/connack.rs:136-208 `ConnAckProperties::len`. -/
def ConnAckProperties.lenC (p : ConnAckProperties) : MC Nat := do
  ticks p.user_properties.length
  pure p.len

/-- src/publish.rs:143-179 `PublishProperties::len`. -/
def PublishProperties.lenC (p : PublishProperties) : MC Nat := do
  ticks (p.user_properties.length + p.subscription_identifiers.length)
  pure p.len

/-- src/puback.rs:136-148 `PubAckProperties::len`. -/
def PubAckProperties.lenC (p : PubAckProperties) : MC Nat := do
  ticks p.user_properties.length
  pure p.len

/-- src/pubrec.rs:131-143 `PubRecProperties::len`. -/
def PubRecProperties.lenC (p : PubRecProperties) : MC Nat := do
  ticks p.user_properties.length
  pure p.len

/-- src/pubrel.rs:130-142 `PubRelProperties::len`. -/
def PubRelProperties.lenC (p : PubRelProperties) : MC Nat := do
  ticks p.user_properties.length
  pure p.len

/-- src/pubcomp.rs:129-141 `PubCompProperties::len`. -/
def PubCompProperties.lenC (p : PubCompProperties) : MC Nat := do
  ticks p.user_properties.length
  pure p.len

/-- src/subscribe.rs:210-222 `SubscribeProperties::len`. -/
def SubscribeProperties.lenC (p : SubscribeProperties) : MC Nat := do
  ticks p.user_properties.length
  pure p.len

/-- src/suback.rs:108-120 `SubAckProperties::len`. -/
def SubAckProperties.lenC (p : SubAckProperties) : MC Nat := do
  ticks p.user_properties.length
  pure p.len

/-- src/unsubscribe.rs:103-111 `UnsubscribeProperties::len`. -/
def UnsubscribeProperties.lenC (p : UnsubscribeProperties) : MC Nat := do
  ticks p.user_properties.length
  pure p.len

/-- src/unsuback.rs:105-117 `UnsubAckProperties::len`. -/
def UnsubAckProperties.lenC (p : UnsubAckProperties) : MC Nat := do
  ticks p.user_properties.length
  pure p.len

/-- src/disconnect.rs:143-163 `DisconnectProperties::len`. -/
def DisconnectProperties.lenC (p : DisconnectProperties) : MC Nat := do
  ticks p.user_properties.length
  pure p.len

/-- src/connack.rs:50-63 `ConnAck::len`. -/
def ConnAck.lenC (p : ConnAck) : MC Nat := do
  optTicks (fun q => q.user_properties.length) p.properties
  pure p.len

/-- src/publish.rs:45-62 `Publish::len`. -/
def Publish.lenC (p : Publish) : MC Nat := do
  optTicks (fun q => q.user_properties.length + q.subscription_identifiers.length)
    p.properties
  pure p.len

/-- src/puback.rs:52-70 `PubAck::len`. -/
def PubAck.lenC (p : PubAck) : MC Nat := do
  optTicks (fun q => q.user_properties.length) p.properties
  pure p.len

/-- src/pubrec.rs:50-69 `PubRec::len`. -/
def PubRec.lenC (p : PubRec) : MC Nat := do
  optTicks (fun q => q.user_properties.length) p.properties
  pure p.len

/-- src/pubrel.rs:48-67 `PubRel::len`. -/
def PubRel.lenC (p : PubRel) : MC Nat := do
  optTicks (fun q => q.user_properties.length) p.properties
  pure p.len

/-- src/pubcomp.rs:46-65 `PubComp::len`. -/
def PubComp.lenC (p : PubComp) : MC Nat := do
  optTicks (fun q => q.user_properties.length) p.properties
  pure p.len

/-- src/subscribe.rs:46-59 `Subscribe::len`. -/
def Subscribe.lenC (p : Subscribe) : MC Nat := do
  ticks p.filters.length
  optTicks (fun q => q.user_properties.length) p.properties
  pure p.len

/-- src/suback.rs:18-31 `SubAck::len`. -/
def SubAck.lenC (p : SubAck) : MC Nat := do
  optTicks (fun q => q.user_properties.length) p.properties
  pure p.len

/-- src/unsubscribe.rs:34-49 `Unsubscribe::len`. -/
def Unsubscribe.lenC (p : Unsubscribe) : MC Nat := do
  ticks p.filters.length
  optTicks (fun q => q.user_properties.length) p.properties
  pure p.len

/-- src/unsuback.rs:18-31 `UnsubAck::len`. -/
def UnsubAck.lenC (p : UnsubAck) : MC Nat := do
  optTicks (fun q => q.user_properties.length) p.properties
  pure p.len

/-- src/disconnect.rs:259-279 `Disconnect::len`. -/
def Disconnect.lenC (p : Disconnect) : MC Nat := do
  optTicks (fun q => q.user_properties.length) p.properties
  pure p.len

/-- src/connect.rs:62-90 `Connect::len`, with `LastWill::len` (src/connect.rs:367-381). -/
def Connect.lenC (c : Connect) (will : Option LastWill) (l : Option Login) : MC Nat := do
  optTicks (fun q => q.user_properties.length) c.properties
  optTicks (fun q => q.user_properties.length) (will.bind fun x => x.properties)
  pure (c.len will l)

/-- src/connect.rs:296-347 `ConnectProperties::write`. -/
def ConnectProperties.writeC (p : ConnectProperties) : MC Unit := do
  let len ← p.lenC
  let _ ← write_remaining_lengthC len
  lift (writeOptU32 .SessionExpiryInterval p.session_expiry_interval)
  lift (writeOptU16 .ReceiveMaximum p.receive_maximum)
  lift (writeOptU32 .MaximumPacketSize p.max_packet_size)
  lift (writeOptU16 .TopicAliasMaximum p.topic_alias_max)
  lift (writeOptU8 .RequestResponseInformation p.request_response_info)
  lift (writeOptU8 .RequestProblemInformation p.request_problem_info)
  writeUserPropsC p.user_properties
  lift (writeOptStr .AuthenticationMethod p.authentication_method)
  lift (writeOptStr .AuthenticationData p.authentication_data)

/-- src/connect.rs:546-587 `LastWillProperties::write`. -/
def LastWillProperties.writeC (p : LastWillProperties) : MC Unit := do
  let len ← p.lenC
  let _ ← write_remaining_lengthC len
  lift (writeOptU32 .WillDelayInterval p.delay_interval)
  lift (writeOptU8 .PayloadFormatIndicator p.payload_format_indicator)
  lift (writeOptU32 .MessageExpiryInterval p.message_expiry_interval)
  lift (writeOptStr .ContentType p.content_type)
  lift (writeOptStr .ResponseTopic p.response_topic)
  lift (writeOptStr .CorrelationData p.correlation_data)
  writeUserPropsC p.user_properties

/-- src/connack.rs:344-435 `ConnAckProperties::write`. -/
def ConnAckProperties.writeC (p : ConnAckProperties) : MC Unit := do
  let len ← p.lenC
  let _ ← write_remaining_lengthC len
  lift (writeOptU32 .SessionExpiryInterval p.session_expiry_interval)
  lift (writeOptU16 .ReceiveMaximum p.receive_max)
  lift (writeOptU8 .MaximumQos p.max_qos)
  lift (writeOptU8 .RetainAvailable p.retain_available)
  lift (writeOptU32 .MaximumPacketSize p.max_packet_size)
  lift (writeOptStr .AssignedClientIdentifier p.assigned_client_identifier)
  lift (writeOptU16 .TopicAliasMaximum p.topic_alias_max)
  lift (writeOptStr .ReasonString p.reason_string)
  writeUserPropsC p.user_properties
  lift (writeOptU8 .WildcardSubscriptionAvailable p.wildcard_subscription_available)
  lift (writeOptU8 .SubscriptionIdentifierAvailable p.subscription_identifiers_available)
  lift (writeOptU8 .SharedSubscriptionAvailable p.shared_subscription_available)
  lift (writeOptU16 .ServerKeepAlive p.server_keep_alive)
  lift (writeOptStr .ResponseInformation p.response_information)
  lift (writeOptStr .ServerReference p.server_reference)
  lift (writeOptStr .AuthenticationMethod p.authentication_method)
  lift (writeOptStr .AuthenticationData p.authentication_data)

/-- src/publish.rs:259-305 `PublishProperties::write`. -/
def PublishProperties.writeC (p : PublishProperties) : MC Unit := do
  let len ← p.lenC
  let _ ← write_remaining_lengthC len
  lift (writeOptU8 .PayloadFormatIndicator p.payload_format_indicator)
  lift (writeOptU32 .MessageExpiryInterval p.message_expiry_interval)
  lift (writeOptU16 .TopicAlias p.topic_alias)
  lift (writeOptStr .ResponseTopic p.response_topic)
  lift (writeOptStr .CorrelationData p.correlation_data)
  writeUserPropsC p.user_properties
  writeSubIdsC p.subscription_identifiers
  lift (writeOptStr .ContentType p.content_type)

/-- src/puback.rs:188-204 `PubAckProperties::write`. -/
def PubAckProperties.writeC (p : PubAckProperties) : MC Unit := do
  let len ← p.lenC
  let _ ← write_remaining_lengthC len
  lift (writeOptStr .ReasonString p.reason_string)
  writeUserPropsC p.user_properties

/-- src/pubrec.rs:183-199 `PubRecProperties::write`. -/
def PubRecProperties.writeC (p : PubRecProperties) : MC Unit := do
  let len ← p.lenC
  let _ ← write_remaining_lengthC len
  lift (writeOptStr .ReasonString p.reason_string)
  writeUserPropsC p.user_properties

/-- src/pubrel.rs:182-198 `PubRelProperties::write`. -/
def PubRelProperties.writeC (p : PubRelProperties) : MC Unit := do
  let len ← p.lenC
  let _ ← write_remaining_lengthC len
  lift (writeOptStr .ReasonString p.reason_string)
  writeUserPropsC p.user_properties

/-- src/pubcomp.rs:181-197 `PubCompProperties::write`. -/
def PubCompProperties.writeC (p : PubCompProperties) : MC Unit := do
  let len ← p.lenC
  let _ ← write_remaining_lengthC len
  lift (writeOptStr .ReasonString p.reason_string)
  writeUserPropsC p.user_properties

/-- src/subscribe.rs:265-281 `SubscribeProperties::write`. -/
def SubscribeProperties.writeC (p : SubscribeProperties) : MC Unit := do
  let len ← p.lenC
  let _ ← write_remaining_lengthC len
  match p.id with
  | some id => do
    lift (putU8 PropertyType.SubscriptionIdentifier.toU8)
    let _ ← write_remaining_lengthC id
    writeUserPropsC p.user_properties
  | none => writeUserPropsC p.user_properties

/-- src/suback.rs:160-176 `SubAckProperties::write`. -/
def SubAckProperties.writeC (p : SubAckProperties) : MC Unit := do
  let len ← p.lenC
  let _ ← write_remaining_lengthC len
  lift (writeOptStr .ReasonString p.reason_string)
  writeUserPropsC p.user_properties

/-- src/unsubscribe.rs:143-154 `UnsubscribeProperties::write`. -/
def UnsubscribeProperties.writeC (p : UnsubscribeProperties) : MC Unit := do
  let len ← p.lenC
  let _ ← write_remaining_lengthC len
  writeUserPropsC p.user_properties

/-- src/unsuback.rs:157-173 `UnsubAckProperties::write`. -/
def UnsubAckProperties.writeC (p : UnsubAckProperties) : MC Unit := do
  let len ← p.lenC
  let _ ← write_remaining_lengthC len
  lift (writeOptStr .ReasonString p.reason_string)
  writeUserPropsC p.user_properties

/-- src/disconnect.rs:221-247 `DisconnectProperties::write`. -/
def DisconnectProperties.writeC (p : DisconnectProperties) : MC Unit := do
  let length ← p.lenC
  let _ ← write_remaining_lengthC length
  lift (writeOptU32 .SessionExpiryInterval p.session_expiry_interval)
  lift (writeOptStr .ReasonString p.reason_string)
  writeUserPropsC p.user_properties
  lift (writeOptStr .ServerReference p.server_reference)

/-- src/connect.rs:410-427 `LastWill::write`; returns the flag bits. -/
def LastWill.writeC (x : LastWill) : MC UInt8 := do
  let connect_flags : UInt8 := 0
  let connect_flags := connect_flags ||| ((0x04 : UInt8) ||| (x.qos.toU8 <<< 3))
  let connect_flags := if x.retain then connect_flags ||| 0x20 else connect_flags
  writeOptPropsC LastWillProperties.writeC x.properties
  lift (write_mqtt_bytes x.topic)
  lift (write_mqtt_bytes x.message)
  pure connect_flags

/-- src/connect.rs:92-135 `Connect::write`; `flags_index` is relative to the start of the
buffer, as in the code. -/
def Connect.writeC (c : Connect) (will : Option LastWill) (l : Option Login) :
    MC Nat := do
  let len ← c.lenC will l
  lift (putU8 0b00010000)
  let count ← write_remaining_lengthC len
  lift (write_mqtt_string protocolName)
  lift (putU8 0x05)
  let flags_index := 1 + count + 2 + 4 + 1
  let connect_flags : UInt8 := 0
  let connect_flags := if c.clean_start then connect_flags ||| 0x02 else connect_flags
  lift (putU8 connect_flags)
  lift (putU16 c.keep_alive)
  writeOptPropsC ConnectProperties.writeC c.properties
  lift (write_mqtt_string c.client_id)
  let connect_flags ←
    (match will with
    | some x => do
      let f ← x.writeC
      pure (connect_flags ||| f)
    | none => pure connect_flags)
  let connect_flags ←
    (match l with
    | some l => do
      let f ← lift l.write
      pure (connect_flags ||| f)
    | none => pure connect_flags)
  lift (setIndex flags_index connect_flags)
  pure (1 + count + len)

/-- src/connack.rs:91-106 `ConnAck::write`. -/
def ConnAck.writeC (p : ConnAck) : MC Nat := do
  let len ← p.lenC
  lift (putU8 0x20)
  let count ← write_remaining_lengthC len
  lift (putU8 (boolU8 p.session_present))
  let code ← lift (liftOut p.code.code)
  lift (putU8 code)
  writeOptPropsC ConnAckProperties.writeC p.properties
  pure (1 + count + len)

/-- src/publish.rs:98-127 `Publish::write`. -/
def Publish.writeC (p : Publish) : MC Nat := do
  let len ← p.lenC
  let dup := boolU8 p.dup
  let qos := p.qos.toU8
  let retain := boolU8 p.retain
  lift (putU8 ((0b00110000 : UInt8) ||| retain ||| (qos <<< 1) ||| (dup <<< 3)))
  let count ← write_remaining_lengthC len
  lift (write_mqtt_string p.topic)
  if p.qos ≠ .AtMostOnce then
    lift (if p.pkid = 0 then throwE .PacketIdZero else putU16 p.pkid)
  else pure ()
  writeOptPropsC PublishProperties.writeC p.properties
  lift (putBytes p.payload)
  pure (1 + count + len)

/-- src/puback.rs:106-126 `PubAck::write`. -/
def PubAck.writeC (p : PubAck) : MC Nat := do
  let len ← p.lenC
  lift (putU8 0x40)
  let count ← write_remaining_lengthC len
  lift (putU16 p.pkid)
  if p.reason = .Success ∧ p.properties = none then pure 4
  else do
    lift (putU8 p.reason.code)
    writeOptPropsC PubAckProperties.writeC p.properties
    pure (1 + count + len)

/-- src/pubrec.rs:101-121 `PubRec::write`. -/
def PubRec.writeC (p : PubRec) : MC Nat := do
  let len ← p.lenC
  lift (putU8 0x50)
  let count ← write_remaining_lengthC len
  lift (putU16 p.pkid)
  if p.reason = .Success ∧ p.properties = none then pure 4
  else do
    lift (putU8 p.reason.code)
    writeOptPropsC PubRecProperties.writeC p.properties
    pure (1 + count + len)

/-- src/pubrel.rs:100-120 `PubRel::write`. -/
def PubRel.writeC (p : PubRel) : MC Nat := do
  let len ← p.lenC
  lift (putU8 0x62)
  let count ← write_remaining_lengthC len
  lift (putU16 p.pkid)
  if p.reason = .Success ∧ p.properties = none then pure 4
  else do
    lift (putU8 p.reason.code)
    writeOptPropsC PubRelProperties.writeC p.properties
    pure (1 + count + len)

/-- src/pubcomp.rs:99-119 `PubComp::write`. -/
def PubComp.writeC (p : PubComp) : MC Nat := do
  let len ← p.lenC
  lift (putU8 0x70)
  let count ← write_remaining_lengthC len
  lift (putU16 p.pkid)
  if p.reason = .Success ∧ p.properties = none then pure 4
  else do
    lift (putU8 p.reason.code)
    writeOptPropsC PubCompProperties.writeC p.properties
    pure (1 + count + len)

/-- src/subscribe.rs:81-104 `Subscribe::write`. -/
def Subscribe.writeC (s : Subscribe) : MC Nat := do
  lift (putU8 0x82)
  let remaining_len ← s.lenC
  let remaining_len_bytes ← write_remaining_lengthC remaining_len
  lift (putU16 s.pkid)
  writeOptPropsC SubscribeProperties.writeC s.properties
  Filter.writeAllC s.filters
  pure (1 + remaining_len_bytes + remaining_len)

/-- src/suback.rs:67-84 `SubAck::write`. -/
def SubAck.writeC (p : SubAck) : MC Nat := do
  lift (putU8 0x90)
  let remaining_len ← p.lenC
  let remaining_len_bytes ← write_remaining_lengthC remaining_len
  lift (putU16 p.pkid)
  writeOptPropsC SubAckProperties.writeC p.properties
  ticks p.return_codes.length
  lift (putBytes (p.return_codes.map SubscribeReasonCode.code))
  pure (1 + remaining_len_bytes + remaining_len)

/-- src/unsubscribe.rs:72-94 `Unsubscribe::write`. -/
def Unsubscribe.writeC (u : Unsubscribe) : MC Nat := do
  lift (putU8 0xA2)
  let remaining_len ← u.lenC
  let remaining_len_bytes ← write_remaining_lengthC remaining_len
  lift (putU16 u.pkid)
  writeOptPropsC UnsubscribeProperties.writeC u.properties
  Unsubscribe.writeFiltersC u.filters
  pure (1 + remaining_len_bytes + remaining_len)

/-- src/unsuback.rs:67-83 `UnsubAck::write`. -/
def UnsubAck.writeC (p : UnsubAck) : MC Nat := do
  lift (putU8 0xB0)
  let remaining_len ← p.lenC
  let remaining_len_bytes ← write_remaining_lengthC remaining_len
  lift (putU16 p.pkid)
  writeOptPropsC UnsubAckProperties.writeC p.properties
  ticks p.reasons.length
  lift (putBytes (p.reasons.map UnsubAckReason.code))
  pure (1 + remaining_len_bytes + remaining_len)

/-- src/disconnect.rs:321-342 `Disconnect::write`. -/
def Disconnect.writeC (d : Disconnect) : MC Nat := do
  lift (putU8 0xE0)
  let length ← d.lenC
  if length = 2 then do
    lift (putU8 0x00)
    pure length
  else do
    let len_len ← write_remaining_lengthC length
    lift (putU8 d.reason_code.code)
    writeOptPropsC DisconnectProperties.writeC d.properties
    pure (1 + len_len + length)

/-- src/lib.rs:218-235 `Packet::write`. -/
def Packet.writeC : Packet → MC Nat
  | .Publish p => p.writeC
  | .Subscribe p => p.writeC
  | .Unsubscribe p => p.writeC
  | .ConnAck p => p.writeC
  | .PubAck p => p.writeC
  | .SubAck p => p.writeC
  | .UnsubAck p => p.writeC
  | .PubRec p => p.writeC
  | .PubRel p => p.writeC
  | .PubComp p => p.writeC
  | .Connect c will login => c.writeC will login
  | .PingReq => lift Mqtt.PingReq.write
  | .PingResp => lift Mqtt.PingResp.write
  | .Disconnect p => p.writeC

end Mqtt
