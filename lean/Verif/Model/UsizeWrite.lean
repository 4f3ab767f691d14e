import Verif.Model.UsizeEnc
/-
`Packet::write` as a whole on a target whose `usize` has `w` bits, with or without overflow checks:
the writers with the lengths of `Model/UsizeEnc.lean` and with checked sums.
-/
namespace Mqtt

/-- src/lib.rs:554-565, the loop of `write_remaining_length` (see `writeRemLoop`). -/
def writeRemLoopB (m : Build) (w : Nat) : (fuel x count : Nat) → M Nat
  | 0, _, _ => fun b => (.diverge, b)
  | fuel + 1, x, count => do
    let byte := UInt8.ofNat (x % 128)
    let x := x / 128
    let byte := if x > 0 then byte ||| 128 else byte
    putU8 byte
    let count ← liftOut (addB m w count 1)
    if x = 0 then pure count else writeRemLoopB m w fuel x count

/-- src/lib.rs:545-568 `write_remaining_length`. -/
def write_remaining_lengthB (m : Build) (w : Nat) (len : Nat) : M Nat :=
  if len > 268435455 then throwE .PayloadTooLong else writeRemLoopB m w 10 len 0

/-- The optional property section (see `writeOptProps`). -/
def writeOptPropsB {σ : Type} (m : Build) (w : Nat) (write : σ → M Unit) : Option σ → M Unit
  | some p => write p
  | none => do let _ ← write_remaining_lengthB m w 0; pure ()

/-- src/publish.rs:294-297, the loop over the subscription identifiers. -/
def PublishProperties.writeSubIdsB (m : Build) (w : Nat) : List Nat → M Unit
  | [] => pure ()
  | id :: ids => do
    putU8 PropertyType.SubscriptionIdentifier.toU8
    let _ ← write_remaining_lengthB m w id
    writeSubIdsB m w ids

/-- src/connect.rs:296-347 `ConnectProperties::write`. -/
def ConnectProperties.writeB (m : Build) (w : Nat) (p : ConnectProperties) : M Unit := do
  let len ← liftOut (p.lenB m w)
  let _ ← write_remaining_lengthB m w len
  writeOptU32 .SessionExpiryInterval p.session_expiry_interval
  writeOptU16 .ReceiveMaximum p.receive_maximum
  writeOptU32 .MaximumPacketSize p.max_packet_size
  writeOptU16 .TopicAliasMaximum p.topic_alias_max
  writeOptU8 .RequestResponseInformation p.request_response_info
  writeOptU8 .RequestProblemInformation p.request_problem_info
  writeUserProps p.user_properties
  writeOptStr .AuthenticationMethod p.authentication_method
  writeOptStr .AuthenticationData p.authentication_data

/-- src/connect.rs:546-587 `LastWillProperties::write`. -/
def LastWillProperties.writeB (m : Build) (w : Nat) (p : LastWillProperties) : M Unit := do
  let len ← liftOut (p.lenB m w)
  let _ ← write_remaining_lengthB m w len
  writeOptU32 .WillDelayInterval p.delay_interval
  writeOptU8 .PayloadFormatIndicator p.payload_format_indicator
  writeOptU32 .MessageExpiryInterval p.message_expiry_interval
  writeOptStr .ContentType p.content_type
  writeOptStr .ResponseTopic p.response_topic
  writeOptStr .CorrelationData p.correlation_data
  writeUserProps p.user_properties

/-- src/connack.rs:344-435 `ConnAckProperties::write`. -/
def ConnAckProperties.writeB (m : Build) (w : Nat) (p : ConnAckProperties) : M Unit := do
  let len ← liftOut (p.lenB m w)
  let _ ← write_remaining_lengthB m w len
  writeOptU32 .SessionExpiryInterval p.session_expiry_interval
  writeOptU16 .ReceiveMaximum p.receive_max
  writeOptU8 .MaximumQos p.max_qos
  writeOptU8 .RetainAvailable p.retain_available
  writeOptU32 .MaximumPacketSize p.max_packet_size
  writeOptStr .AssignedClientIdentifier p.assigned_client_identifier
  writeOptU16 .TopicAliasMaximum p.topic_alias_max
  writeOptStr .ReasonString p.reason_string
  writeUserProps p.user_properties
  writeOptU8 .WildcardSubscriptionAvailable p.wildcard_subscription_available
  writeOptU8 .SubscriptionIdentifierAvailable p.subscription_identifiers_available
  writeOptU8 .SharedSubscriptionAvailable p.shared_subscription_available
  writeOptU16 .ServerKeepAlive p.server_keep_alive
  writeOptStr .ResponseInformation p.response_information
  writeOptStr .ServerReference p.server_reference
  writeOptStr .AuthenticationMethod p.authentication_method
  writeOptStr .AuthenticationData p.authentication_data

/-- src/publish.rs:259-305 `PublishProperties::write`. -/
def PublishProperties.writeB (m : Build) (w : Nat) (p : PublishProperties) : M Unit := do
  let len ← liftOut (p.lenB m w)
  let _ ← write_remaining_lengthB m w len
  writeOptU8 .PayloadFormatIndicator p.payload_format_indicator
  writeOptU32 .MessageExpiryInterval p.message_expiry_interval
  writeOptU16 .TopicAlias p.topic_alias
  writeOptStr .ResponseTopic p.response_topic
  writeOptStr .CorrelationData p.correlation_data
  writeUserProps p.user_properties
  writeSubIdsB m w p.subscription_identifiers
  writeOptStr .ContentType p.content_type

/-- src/puback.rs:188-204 `PubAckProperties::write`. -/
def PubAckProperties.writeB (m : Build) (w : Nat) (p : PubAckProperties) : M Unit := do
  let len ← liftOut (p.lenB m w)
  let _ ← write_remaining_lengthB m w len
  writeOptStr .ReasonString p.reason_string
  writeUserProps p.user_properties

/-- src/pubrec.rs:183-199 `PubRecProperties::write`. -/
def PubRecProperties.writeB (m : Build) (w : Nat) (p : PubRecProperties) : M Unit := do
  let len ← liftOut (p.lenB m w)
  let _ ← write_remaining_lengthB m w len
  writeOptStr .ReasonString p.reason_string
  writeUserProps p.user_properties

/-- src/pubrel.rs:182-198 `PubRelProperties::write`. -/
def PubRelProperties.writeB (m : Build) (w : Nat) (p : PubRelProperties) : M Unit := do
  let len ← liftOut (p.lenB m w)
  let _ ← write_remaining_lengthB m w len
  writeOptStr .ReasonString p.reason_string
  writeUserProps p.user_properties

/-- src/pubcomp.rs:181-197 `PubCompProperties::write`. -/
def PubCompProperties.writeB (m : Build) (w : Nat) (p : PubCompProperties) : M Unit := do
  let len ← liftOut (p.lenB m w)
  let _ ← write_remaining_lengthB m w len
  writeOptStr .ReasonString p.reason_string
  writeUserProps p.user_properties

/-- src/subscribe.rs:265-281 `SubscribeProperties::write`. -/
def SubscribeProperties.writeB (m : Build) (w : Nat) (p : SubscribeProperties) : M Unit := do
  let len ← liftOut (p.lenB m w)
  let _ ← write_remaining_lengthB m w len
  match p.id with
  | some id => do
    putU8 PropertyType.SubscriptionIdentifier.toU8
    let _ ← write_remaining_lengthB m w id
    writeUserProps p.user_properties
  | none => writeUserProps p.user_properties

/-- src/suback.rs:160-176 `SubAckProperties::write`. -/
def SubAckProperties.writeB (m : Build) (w : Nat) (p : SubAckProperties) : M Unit := do
  let len ← liftOut (p.lenB m w)
  let _ ← write_remaining_lengthB m w len
  writeOptStr .ReasonString p.reason_string
  writeUserProps p.user_properties

/-- src/unsubscribe.rs:143-154 `UnsubscribeProperties::write`. -/
def UnsubscribeProperties.writeB (m : Build) (w : Nat) (p : UnsubscribeProperties) : M Unit := do
  let len ← liftOut (p.lenB m w)
  let _ ← write_remaining_lengthB m w len
  writeUserProps p.user_properties

/-- src/unsuback.rs:157-173 `UnsubAckProperties::write`. -/
def UnsubAckProperties.writeB (m : Build) (w : Nat) (p : UnsubAckProperties) : M Unit := do
  let len ← liftOut (p.lenB m w)
  let _ ← write_remaining_lengthB m w len
  writeOptStr .ReasonString p.reason_string
  writeUserProps p.user_properties

/-- src/disconnect.rs:221-247 `DisconnectProperties::write`. -/
def DisconnectProperties.writeB (m : Build) (w : Nat) (p : DisconnectProperties) : M Unit := do
  let length ← liftOut (p.lenB m w)
  let _ ← write_remaining_lengthB m w length
  writeOptU32 .SessionExpiryInterval p.session_expiry_interval
  writeOptStr .ReasonString p.reason_string
  writeUserProps p.user_properties
  writeOptStr .ServerReference p.server_reference

/-- src/connect.rs:410-427 `LastWill::write`; returns the flag bits. -/
def LastWill.writeB (m : Build) (w : Nat) (x : LastWill) : M UInt8 := do
  let connect_flags : UInt8 := 0
  let connect_flags := connect_flags ||| ((0x04 : UInt8) ||| (x.qos.toU8 <<< 3))
  let connect_flags := if x.retain then connect_flags ||| 0x20 else connect_flags
  writeOptPropsB m w (LastWillProperties.writeB m w) x.properties
  write_mqtt_bytes x.topic
  write_mqtt_bytes x.message
  pure connect_flags

/-- src/connect.rs:92-135 `Connect::write`; `flags_index` is relative to the start of the
buffer, as in the code. -/
def Connect.writeB (m : Build) (w : Nat) (c : Connect) (will : Option LastWill) (l : Option Login) :
    M Nat := do
  let len ← liftOut (c.lenB m w will l)
  putU8 0b00010000
  let count ← write_remaining_lengthB m w len
  write_mqtt_string protocolName
  putU8 0x05
  let flags_index ← liftOut (sumB m w 1 [count, 2, 4, 1])
  let connect_flags : UInt8 := 0
  let connect_flags := if c.clean_start then connect_flags ||| 0x02 else connect_flags
  putU8 connect_flags
  putU16 c.keep_alive
  writeOptPropsB m w (ConnectProperties.writeB m w) c.properties
  write_mqtt_string c.client_id
  let connect_flags ←
    (match will with
    | some x => do
      let f ← x.writeB m w
      pure (connect_flags ||| f)
    | none => pure connect_flags)
  let connect_flags ←
    (match l with
    | some l => do
      let f ← l.write
      pure (connect_flags ||| f)
    | none => pure connect_flags)
  setIndex flags_index connect_flags
  liftOut (sumB m w 1 [count, len])

/-- src/connack.rs:91-106 `ConnAck::write`. -/
def ConnAck.writeB (m : Build) (w : Nat) (p : ConnAck) : M Nat := do
  let len ← liftOut (p.lenB m w)
  putU8 0x20
  let count ← write_remaining_lengthB m w len
  putU8 (boolU8 p.session_present)
  let code ← liftOut p.code.code
  putU8 code
  writeOptPropsB m w (ConnAckProperties.writeB m w) p.properties
  liftOut (sumB m w 1 [count, len])

/-- src/publish.rs:98-127 `Publish::write`. -/
def Publish.writeB (m : Build) (w : Nat) (p : Publish) : M Nat := do
  let len ← liftOut (p.lenB m w)
  let dup := boolU8 p.dup
  let qos := p.qos.toU8
  let retain := boolU8 p.retain
  putU8 ((0b00110000 : UInt8) ||| retain ||| (qos <<< 1) ||| (dup <<< 3))
  let count ← write_remaining_lengthB m w len
  write_mqtt_string p.topic
  if p.qos ≠ .AtMostOnce then
    (if p.pkid = 0 then throwE .PacketIdZero else putU16 p.pkid)
  else pure ()
  writeOptPropsB m w (PublishProperties.writeB m w) p.properties
  putBytes p.payload
  liftOut (sumB m w 1 [count, len])

/-- src/puback.rs:106-126 `PubAck::write`. -/
def PubAck.writeB (m : Build) (w : Nat) (p : PubAck) : M Nat := do
  let len ← liftOut (p.lenB m w)
  putU8 0x40
  let count ← write_remaining_lengthB m w len
  putU16 p.pkid
  if p.reason = .Success ∧ p.properties = none then pure 4
  else do
    putU8 p.reason.code
    writeOptPropsB m w (PubAckProperties.writeB m w) p.properties
    liftOut (sumB m w 1 [count, len])

/-- src/pubrec.rs:101-121 `PubRec::write`. -/
def PubRec.writeB (m : Build) (w : Nat) (p : PubRec) : M Nat := do
  let len ← liftOut (p.lenB m w)
  putU8 0x50
  let count ← write_remaining_lengthB m w len
  putU16 p.pkid
  if p.reason = .Success ∧ p.properties = none then pure 4
  else do
    putU8 p.reason.code
    writeOptPropsB m w (PubRecProperties.writeB m w) p.properties
    liftOut (sumB m w 1 [count, len])

/-- src/pubrel.rs:100-120 `PubRel::write`. -/
def PubRel.writeB (m : Build) (w : Nat) (p : PubRel) : M Nat := do
  let len ← liftOut (p.lenB m w)
  putU8 0x62
  let count ← write_remaining_lengthB m w len
  putU16 p.pkid
  if p.reason = .Success ∧ p.properties = none then pure 4
  else do
    putU8 p.reason.code
    writeOptPropsB m w (PubRelProperties.writeB m w) p.properties
    liftOut (sumB m w 1 [count, len])

/-- src/pubcomp.rs:99-119 `PubComp::write`. -/
def PubComp.writeB (m : Build) (w : Nat) (p : PubComp) : M Nat := do
  let len ← liftOut (p.lenB m w)
  putU8 0x70
  let count ← write_remaining_lengthB m w len
  putU16 p.pkid
  if p.reason = .Success ∧ p.properties = none then pure 4
  else do
    putU8 p.reason.code
    writeOptPropsB m w (PubCompProperties.writeB m w) p.properties
    liftOut (sumB m w 1 [count, len])

/-- src/subscribe.rs:81-104 `Subscribe::write`. -/
def Subscribe.writeB (m : Build) (w : Nat) (s : Subscribe) : M Nat := do
  putU8 0x82
  let remaining_len ← liftOut (s.lenB m w)
  let remaining_len_bytes ← write_remaining_lengthB m w remaining_len
  putU16 s.pkid
  writeOptPropsB m w (SubscribeProperties.writeB m w) s.properties
  Filter.writeAll s.filters
  liftOut (sumB m w 1 [remaining_len_bytes, remaining_len])

/-- src/suback.rs:67-84 `SubAck::write`. -/
def SubAck.writeB (m : Build) (w : Nat) (p : SubAck) : M Nat := do
  putU8 0x90
  let remaining_len ← liftOut (p.lenB m w)
  let remaining_len_bytes ← write_remaining_lengthB m w remaining_len
  putU16 p.pkid
  writeOptPropsB m w (SubAckProperties.writeB m w) p.properties
  putBytes (p.return_codes.map SubscribeReasonCode.code)
  liftOut (sumB m w 1 [remaining_len_bytes, remaining_len])

/-- src/unsubscribe.rs:72-94 `Unsubscribe::write`. -/
def Unsubscribe.writeB (m : Build) (w : Nat) (u : Unsubscribe) : M Nat := do
  putU8 0xA2
  let remaining_len ← liftOut (u.lenB m w)
  let remaining_len_bytes ← write_remaining_lengthB m w remaining_len
  putU16 u.pkid
  writeOptPropsB m w (UnsubscribeProperties.writeB m w) u.properties
  Unsubscribe.writeFilters u.filters
  liftOut (sumB m w 1 [remaining_len_bytes, remaining_len])

/-- src/unsuback.rs:67-83 `UnsubAck::write`. -/
def UnsubAck.writeB (m : Build) (w : Nat) (p : UnsubAck) : M Nat := do
  putU8 0xB0
  let remaining_len ← liftOut (p.lenB m w)
  let remaining_len_bytes ← write_remaining_lengthB m w remaining_len
  putU16 p.pkid
  writeOptPropsB m w (UnsubAckProperties.writeB m w) p.properties
  putBytes (p.reasons.map UnsubAckReason.code)
  liftOut (sumB m w 1 [remaining_len_bytes, remaining_len])

/-- src/disconnect.rs:321-342 `Disconnect::write`. -/
def Disconnect.writeB (m : Build) (w : Nat) (d : Disconnect) : M Nat := do
  putU8 0xE0
  let length ← liftOut (d.lenB m w)
  if length = 2 then do
    putU8 0x00
    pure length
  else do
    let len_len ← write_remaining_lengthB m w length
    putU8 d.reason_code.code
    writeOptPropsB m w (DisconnectProperties.writeB m w) d.properties
    liftOut (sumB m w 1 [len_len, length])

/-- src/lib.rs:218-235 `Packet::write`. -/
def Packet.writeB (m : Build) (w : Nat) : Packet → M Nat
  | .Publish p => p.writeB m w
  | .Subscribe p => p.writeB m w
  | .Unsubscribe p => p.writeB m w
  | .ConnAck p => p.writeB m w
  | .PubAck p => p.writeB m w
  | .SubAck p => p.writeB m w
  | .UnsubAck p => p.writeB m w
  | .PubRec p => p.writeB m w
  | .PubRel p => p.writeB m w
  | .PubComp p => p.writeB m w
  | .Connect c will login => c.writeB m w will login
  | .PingReq => Mqtt.PingReq.write
  | .PingResp => Mqtt.PingResp.write
  | .Disconnect p => p.writeB m w

end Mqtt
