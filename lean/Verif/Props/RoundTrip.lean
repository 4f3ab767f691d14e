import Verif.Proofs.Exact
import Verif.Props.Samples
/-
C01-C08: writing a packet and reading it back.

`norm` (Spec/Packet.lean) erases what has no representation on the wire: empty property records
and empty logins become absent, the packet identifier of a QoS 0 publish becomes 0. `StringsOk`
is what Rust's `String` type guarantees of any packet; it is trivial with `binary_string`.
`Admits max n` says that `max_size` lets `n` pass.
The theorems allow arbitrary bytes `r` after the packet, which stay in the buffer.
-/
namespace Props

open Mqtt Spec

/-- C01: CONNECT. -/
theorem C01_connect_round_trip (c : Connect) (will : Option LastWill) (login : Option Login)
    (mode : StrMode) (max : Option Nat) (n : Nat) (buf r : Bytes)
    (hw : (Packet.Connect c will login).write [] = (.ok n, buf))
    (hs : StringsOk mode (.Connect c will login))
    (hm : Admits max (body (.Connect c will login)).length) :
    Packet.read mode max (buf ++ r) =
      (.ok (.Connect { c with properties := normProps ConnectProperties.toList c.properties }
        (will.map fun w =>
          { w with properties := normProps LastWillProperties.toList w.properties })
        (login.filter fun l => !(l.username.isEmpty && l.password.isEmpty))), r) :=
  round_trip hw hs trivial trivial hm r

example : Sample.connect.write [] = (.ok 51, Sample.connectBytes) := by decide +kernel
example : StringsOk .binary Sample.connect := by simp [StringsOk, Property.TextsOk, TextOk]
example : Packet.read .utf8 (some 100) (Sample.connectBytes ++ [1]) = (.ok Sample.connect, [1]) := by
  decide +kernel

/-- C02: CONNACK. -/
theorem C02_connack_round_trip (p : ConnAck) (mode : StrMode) (max : Option Nat) (n : Nat)
    (buf r : Bytes) (hw : (Packet.ConnAck p).write [] = (.ok n, buf))
    (hs : StringsOk mode (.ConnAck p)) (hm : Admits max (body (.ConnAck p)).length) :
    Packet.read mode max (buf ++ r) =
      (.ok (.ConnAck { p with properties := normProps ConnAckProperties.toList p.properties }),
        r) :=
  round_trip hw hs trivial trivial hm r

example : Sample.connAck.write [] = (.ok 17, Sample.connAckBytes) := by decide +kernel
example : Packet.read .utf8 none (Sample.connAckBytes) = (.ok Sample.connAck, []) := by
  decide +kernel

/-- C03, partial: PUBLISH, if the library's miscount of subscription identifiers does no harm
(`DriftSafe`). `C03_publish_counterexample` shows that the full statement is false. -/
theorem C03_publish_round_trip_partial (p : Publish) (mode : StrMode) (max : Option Nat) (n : Nat)
    (buf r : Bytes) (hw : (Packet.Publish p).write [] = (.ok n, buf))
    (hs : StringsOk mode (.Publish p)) (hm : Admits max (body (.Publish p)).length)
    (hd : DriftSafe (optList PublishProperties.toList p.properties)) :
    Packet.read mode max (buf ++ r) =
      (.ok (.Publish { p with
        pkid := if p.qos = .AtMostOnce then 0 else p.pkid
        properties := normProps PublishProperties.toList p.properties }), r) :=
  round_trip hw hs trivial hd hm r

/-- C03, partial: PUBLISH with at most one subscription identifier. -/
theorem C03_publish_one_id_partial (p : Publish) (mode : StrMode) (max : Option Nat) (n : Nat)
    (buf r : Bytes) (hw : (Packet.Publish p).write [] = (.ok n, buf))
    (hs : StringsOk mode (.Publish p)) (hm : Admits max (body (.Publish p)).length)
    (hd : ∀ q, p.properties = some q → q.subscription_identifiers.length ≤ 1) :
    Packet.read mode max (buf ++ r) =
      (.ok (.Publish { p with
        pkid := if p.qos = .AtMostOnce then 0 else p.pkid
        properties := normProps PublishProperties.toList p.properties }), r) := by
  refine C03_publish_round_trip_partial p mode max n buf r hw hs hm
    (driftSafe_of_le_one (encodable_of_ok hw).2.1 ?_)
  cases hp : p.properties with
  | none => simp [optList, subIds, all]
  | some q => exact subIds_publish q ▸ hd q hp

/-- C03, exact: a PUBLISH comes back if and only if it is `DriftSafe`. -/
theorem C03_publish_round_trip_iff (p : Publish) (mode : StrMode) (max : Option Nat) (n : Nat)
    (buf r : Bytes) (hw : (Packet.Publish p).write [] = (.ok n, buf))
    (hs : StringsOk mode (.Publish p)) (hm : Admits max (body (.Publish p)).length) :
    Packet.read mode max (buf ++ r) =
      (.ok (.Publish { p with
        pkid := if p.qos = .AtMostOnce then 0 else p.pkid
        properties := normProps PublishProperties.toList p.properties }), r) ↔
    DriftSafe (optList PublishProperties.toList p.properties) := by
  refine ⟨fun h => ?_, C03_publish_round_trip_partial p mode max n buf r hw hs hm⟩
  obtain ⟨he, -, rfl⟩ := write_ok_inv hw trivial (by simp [IsConnect])
  exact publish_driftSafe (mode := mode) he h

/-- C03 is false in full: a PUBLISH with three subscription identifiers loses the last one, whose
two bytes appear at the front of the payload. -/
theorem C03_publish_counterexample :
    ∃ n buf, (Sample.publish [1, 2, 3]).write [] = (.ok n, buf) ∧
      Packet.read .utf8 none buf =
        (.ok (match Sample.publish [1, 2] with
          | .Publish p => .Publish { p with payload := [0x0B, 3, 0xDE, 0xAD] }
          | p => p), []) := by
  refine ⟨27, [0x33, 25, 0, 3, 0x61, 0x2F, 0x62, 0, 42, 15, 0x01, 1, 0x26, 0, 1, 0x6B, 0, 1, 0x76,
    0x0B, 1, 0x0B, 2, 0x0B, 3, 0xDE, 0xAD], ?_, ?_⟩ <;> decide +kernel

example : (Sample.publish [7]).write [] = (.ok 23, Sample.publishBytes) := by decide +kernel
example : Packet.read .utf8 none (Sample.publishBytes) = (.ok (Sample.publish [7]), []) := by
  decide +kernel

/-- C04: PUBACK. -/
theorem C04_puback_round_trip (p : PubAck) (mode : StrMode) (max : Option Nat) (n : Nat)
    (buf r : Bytes) (hw : (Packet.PubAck p).write [] = (.ok n, buf))
    (hs : StringsOk mode (.PubAck p)) (hm : Admits max (body (.PubAck p)).length) :
    Packet.read mode max (buf ++ r) =
      (.ok (.PubAck { p with properties := normProps PubAckProperties.toList p.properties }), r) :=
  round_trip hw hs trivial trivial hm r

example : Sample.pubAck.write [] =
    (.ok 10, [0x40, 8, 0, 42, 0x97, 4, 0x1F, 0, 1, 0x72]) := by decide +kernel

/-- C04: PUBREC. -/
theorem C04_pubrec_round_trip (p : PubRec) (mode : StrMode) (max : Option Nat) (n : Nat)
    (buf r : Bytes) (hw : (Packet.PubRec p).write [] = (.ok n, buf))
    (hs : StringsOk mode (.PubRec p)) (hm : Admits max (body (.PubRec p)).length) :
    Packet.read mode max (buf ++ r) =
      (.ok (.PubRec { p with properties := normProps PubRecProperties.toList p.properties }), r) :=
  round_trip hw hs trivial trivial hm r

example : Sample.pubRec.write [] =
    (.ok 10, [0x50, 8, 0, 42, 0x97, 4, 0x1F, 0, 1, 0x72]) := by decide +kernel

/-- C04: PUBREL. -/
theorem C04_pubrel_round_trip (p : PubRel) (mode : StrMode) (max : Option Nat) (n : Nat)
    (buf r : Bytes) (hw : (Packet.PubRel p).write [] = (.ok n, buf))
    (hs : StringsOk mode (.PubRel p)) (hm : Admits max (body (.PubRel p)).length) :
    Packet.read mode max (buf ++ r) =
      (.ok (.PubRel { p with properties := normProps PubRelProperties.toList p.properties }), r) :=
  round_trip hw hs trivial trivial hm r

example : Sample.pubRel.write [] =
    (.ok 10, [0x62, 8, 0, 42, 0x92, 4, 0x1F, 0, 1, 0x72]) := by decide +kernel

/-- C04: PUBCOMP. -/
theorem C04_pubcomp_round_trip (p : PubComp) (mode : StrMode) (max : Option Nat) (n : Nat)
    (buf r : Bytes) (hw : (Packet.PubComp p).write [] = (.ok n, buf))
    (hs : StringsOk mode (.PubComp p)) (hm : Admits max (body (.PubComp p)).length) :
    Packet.read mode max (buf ++ r) =
      (.ok (.PubComp { p with properties := normProps PubCompProperties.toList p.properties }),
        r) :=
  round_trip hw hs trivial trivial hm r

example : Sample.pubComp.write [] =
    (.ok 10, [0x70, 8, 0, 42, 0x92, 4, 0x1F, 0, 1, 0x72]) := by decide +kernel

/-- C05: SUBSCRIBE. -/
theorem C05_subscribe_round_trip (p : Subscribe) (mode : StrMode) (max : Option Nat) (n : Nat)
    (buf r : Bytes) (hw : (Packet.Subscribe p).write [] = (.ok n, buf))
    (hs : StringsOk mode (.Subscribe p)) (hm : Admits max (body (.Subscribe p)).length)
    (hf : p.filters ≠ []) :
    Packet.read mode max (buf ++ r) =
      (.ok (.Subscribe { p with
        properties := normProps SubscribeProperties.toList p.properties }), r) :=
  round_trip hw hs trivial hf hm r

example : Sample.subscribe.write [] = (.ok 18, Sample.subscribeBytes) := by decide +kernel
example : Packet.read .utf8 none (Sample.subscribeBytes) = (.ok Sample.subscribe, []) := by
  decide +kernel

/-- C05: UNSUBSCRIBE. -/
theorem C05_unsubscribe_round_trip (p : Unsubscribe) (mode : StrMode) (max : Option Nat) (n : Nat)
    (buf r : Bytes) (hw : (Packet.Unsubscribe p).write [] = (.ok n, buf))
    (hs : StringsOk mode (.Unsubscribe p)) (hm : Admits max (body (.Unsubscribe p)).length) :
    Packet.read mode max (buf ++ r) =
      (.ok (.Unsubscribe { p with
        properties := normProps UnsubscribeProperties.toList p.properties }), r) :=
  round_trip hw hs trivial trivial hm r

example : Sample.unsubscribe.write [] =
    (.ok 17, [0xA2, 15, 0, 7, 6, 0x26, 0, 1, 0x6B, 0, 0, 0, 1, 0x61, 0, 1, 0x62]) := by
  decide +kernel

/-- C06: SUBACK. -/
theorem C06_suback_round_trip (p : SubAck) (mode : StrMode) (max : Option Nat) (n : Nat)
    (buf r : Bytes) (hw : (Packet.SubAck p).write [] = (.ok n, buf))
    (hs : StringsOk mode (.SubAck p)) (hm : Admits max (body (.SubAck p)).length)
    (hf : p.return_codes ≠ []) :
    Packet.read mode max (buf ++ r) =
      (.ok (.SubAck { p with properties := normProps SubAckProperties.toList p.properties }), r) :=
  round_trip hw hs trivial hf hm r

example : Sample.subAck.write [] = (.ok 8, [0x90, 6, 0, 7, 0, 2, 0x80, 0]) := by decide +kernel

/-- C06: UNSUBACK. -/
theorem C06_unsuback_round_trip (p : UnsubAck) (mode : StrMode) (max : Option Nat) (n : Nat)
    (buf r : Bytes) (hw : (Packet.UnsubAck p).write [] = (.ok n, buf))
    (hs : StringsOk mode (.UnsubAck p)) (hm : Admits max (body (.UnsubAck p)).length)
    (hf : p.reasons ≠ []) :
    Packet.read mode max (buf ++ r) =
      (.ok (.UnsubAck { p with properties := normProps UnsubAckProperties.toList p.properties }),
        r) :=
  round_trip hw hs trivial hf hm r

example : Sample.unsubAck.write [] =
    (.ok 11, [0xB0, 9, 0, 7, 4, 0x1F, 0, 1, 0x72, 0, 0x11]) := by decide +kernel

/-- C07: pings are written as two bytes behind whatever is in the buffer. -/
theorem C07_ping_write (b : Bytes) :
    Packet.PingReq.write b = (.ok 2, b ++ [0xC0, 0x00]) ∧
    Packet.PingResp.write b = (.ok 2, b ++ [0xD0, 0x00]) :=
  ⟨rfl, rfl⟩

/-- C07: pings are read back as themselves, whatever follows and under every limit. -/
theorem C07_ping_read (mode : StrMode) (max : Option Nat) (r : Bytes) :
    Packet.read mode max ([0xC0, 0x00] ++ r) = (.ok .PingReq, r) ∧
    Packet.read mode max ([0xD0, 0x00] ++ r) = (.ok .PingResp, r) := by
  have hv : VarintRep [0x00] 0 := ⟨[], 0, rfl, by simp, by simp, by decide, rfl⟩
  have hm : ¬ OverLimit max 0 := by rintro ⟨m, -, h⟩; omega
  exact ⟨read_ok_iff.2 ⟨0xC0, [0x00], [], rfl, hv, hm, by decide, trivial⟩,
    read_ok_iff.2 ⟨0xD0, [0x00], [], rfl, hv, hm, by decide, trivial⟩⟩

/-- C07: a complete frame (within the limit) is read as a ping exactly if its packet type says
so; flags and body do not matter. -/
theorem C07_ping_by_type (mode : StrMode) (max : Option Nat) (b1 : UInt8) (v body r : Bytes)
    (hv : VarintRep v body.length) (hm : Admits max body.length) :
    (Packet.read mode max (b1 :: (v ++ (body ++ r))) = (.ok .PingReq, r) ↔ b1.toNat / 16 = 12) ∧
    (Packet.read mode max (b1 :: (v ++ (body ++ r))) = (.ok .PingResp, r) ↔
      b1.toNat / 16 = 13) := by
  rw [read_frame hv (not_overLimit.2 hm)]
  simp only [Prod.mk.injEq, and_true, frameOut_ok]
  exact ⟨⟨fun h => h.1, fun h => ⟨h, trivial⟩⟩, ⟨fun h => h.1, fun h => ⟨h, trivial⟩⟩⟩

example : VarintRep [0x80, 0x00] ([] : Bytes).length :=
  ⟨[0x80], 0, rfl, by decide, by decide, by decide, rfl⟩

/-- C08, partial: DISCONNECT, unless it has a reason other than normal disconnection and no
property. -/
theorem C08_disconnect_round_trip_partial (p : Disconnect) (mode : StrMode) (max : Option Nat)
    (n : Nat) (buf r : Bytes) (hw : (Packet.Disconnect p).write [] = (.ok n, buf))
    (hs : StringsOk mode (.Disconnect p)) (hm : Admits max (body (.Disconnect p)).length)
    (h : optList DisconnectProperties.toList p.properties = [] →
      p.reason_code = .NormalDisconnection) :
    Packet.read mode max (buf ++ r) =
      (.ok (.Disconnect { p with
        properties := normProps DisconnectProperties.toList p.properties }), r) := by
  by_cases hsd : Sound (.Disconnect p)
  · exact round_trip hw hs hsd trivial hm r
  rcases unsound_emits hsd with ⟨hp, hr, -⟩ | ⟨q, hp, hq, hw'⟩
  · exact absurd (h (by simp [hp, optList])) hr
  · have := (hw' []).symm.trans hw
    simp only [List.nil_append, Prod.mk.injEq, Out.ok.injEq] at this
    rw [← this.2, read_disconnect_nil, h (by simp [hp, hq, optList])]
    simp [hp, hq, normProps, Option.filter]

example : Sample.disconnect.write [] = (.ok 8, [0xE0, 6, 0x89, 4, 0x1F, 0, 1, 0x72]) := by
  decide +kernel

/-- C08 is false in full: a DISCONNECT with a reason other than normal disconnection and no
property record is written with a remaining length of 1 but a body of 2 bytes (behind anything
that is already in the buffer), and is refused when read, leaving the extra byte in the stream. -/
theorem C08_disconnect_no_properties (p : Disconnect) (hp : p.properties = none)
    (hr : p.reason_code ≠ .NormalDisconnection) (mode : StrMode) (max : Option Nat)
    (hm : Admits max 1) (b r : Bytes) :
    (Packet.Disconnect p).write b =
      (.ok 3, b ++ [0xE0, 0x01, disconnectCode p.reason_code, 0x00]) ∧
    Packet.read mode max ([0xE0, 0x01, disconnectCode p.reason_code, 0x00] ++ r) =
      (.err (.InsufficientBytes 1), 0x00 :: r) :=
  ⟨Disconnect.write_none hp hr b, read_disconnect_one p.reason_code hm (0x00 :: r)⟩

example : Sample.disconnectNone.write [] = (.ok 3, [0xE0, 0x01, 0x89, 0x00]) := by decide +kernel

/-- C08 is false in full: a DISCONNECT with an empty property record is written without its
reason and read back as a normal disconnection. -/
theorem C08_disconnect_empty_properties (p : Disconnect) (q : Mqtt.DisconnectProperties)
    (hp : p.properties = some q) (hq : DisconnectProperties.toList q = []) (mode : StrMode)
    (max : Option Nat) (b r : Bytes) :
    (Packet.Disconnect p).write b = (.ok 2, b ++ [0xE0, 0x00]) ∧
    Packet.read mode max ([0xE0, 0x00] ++ r) =
      (.ok (.Disconnect { reason_code := .NormalDisconnection, properties := none }), r) :=
  ⟨Disconnect.write_empty hp hq b, read_disconnect_nil r⟩

example : Sample.disconnectEmpty.write [] = (.ok 2, [0xE0, 0x00]) := by decide +kernel

/-- C08, exact: a DISCONNECT comes back if and only if its reason is normal disconnection or it
has at least one property. -/
theorem C08_disconnect_round_trip_iff (p : Disconnect) (mode : StrMode) (max : Option Nat)
    (n : Nat) (buf r : Bytes) (hw : (Packet.Disconnect p).write [] = (.ok n, buf))
    (hs : StringsOk mode (.Disconnect p)) (hm : Admits max (body (.Disconnect p)).length) :
    Packet.read mode max (buf ++ r) =
      (.ok (.Disconnect { p with
        properties := normProps DisconnectProperties.toList p.properties }), r) ↔
    (optList DisconnectProperties.toList p.properties = [] →
      p.reason_code = .NormalDisconnection) := by
  refine ⟨fun h hl => Classical.byContradiction fun hr => ?_,
    C08_disconnect_round_trip_partial p mode max n buf r hw hs hm⟩
  cases hp : p.properties with
  | none =>
    have h1 : Admits max 1 := by
      intro m hm'
      have := hm m hm'
      simp only [body, ackTail, hp] at this
      split at this
      · next h0 =>
        exact absurd (disconnectCode_zero h0) hr
      · simp only [List.length_cons] at this; omega
    obtain ⟨h2, h3⟩ := C08_disconnect_no_properties p hp hr mode max h1 [] r
    rw [hw] at h2
    simp only [List.nil_append, Prod.mk.injEq] at h2
    rw [h2.2, h3] at h
    simp at h
  | some q =>
    have hq : DisconnectProperties.toList q = [] := by simpa [hp, optList] using hl
    obtain ⟨h2, h3⟩ := C08_disconnect_empty_properties p q hp hq mode max [] r
    rw [hw] at h2
    simp only [List.nil_append, Prod.mk.injEq] at h2
    rw [h2.2, h3] at h
    simp only [Prod.mk.injEq, Out.ok.injEq, Packet.Disconnect.injEq, Disconnect.mk.injEq] at h
    exact hr h.1.1.symm

end Props
