import Verif.Proofs.SectionErr
import Verif.Proofs.WritePacket
import Verif.Proofs.Decoded
import Verif.Spec.Fields
import Verif.Props.Properties
/-
C32, C33, C34, C38: flag bits, packet identifiers, subscription options, short forms.
-/
namespace Props

open Mqtt Spec

theorem bitAt_iff {x : UInt8} {i : Nat} : bitAt x i = true ↔ x.toNat / 2 ^ i % 2 = 1 := by
  simp [bitAt]

theorem bitAt_false {x : UInt8} {i : Nat} : bitAt x i = false ↔ x.toNat / 2 ^ i % 2 = 0 := by
  simp [bitAt]

theorem bit_eq_bitAt {x : UInt8} {i : Nat} {b : Bool} (h : b = bitAt x i) :
    bit b = x.toNat / 2 ^ i % 2 := by
  rw [bit_eq_iff (by omega), h]; rfl

/-! ### C32 -/

/-- C32: a frame of type 1 is accepted only as CONNECT, with protocol name `MQTT` and level 5; will
QoS and retain bits without the will bit, and will QoS 3, do not occur in accepted frames. -/
theorem C32_accepted_only (mode : StrMode) (max : Option Nat) (b1 : UInt8) (bd f r r' : Bytes)
    (p : Packet) (hf : FrameOf b1 bd f) (ht : b1.toNat / 16 = 1)
    (h : Packet.read mode max (f ++ r) = (.ok p, r')) :
    ∃ (c : Connect) (will : Option LastWill) (login : Option Login) (flags : UInt8) (rest : Bytes),
      p = .Connect c will login ∧
      bd = [0, 4, 0x4D, 0x51, 0x54, 0x54, 5, flags] ++ u16 c.keep_alive ++ rest ∧
      c.clean_start = bitAt flags 1 ∧
      (bitAt flags 2 = false → flags.toNat / 8 % 8 = 0) ∧
      (bitAt flags 2 = true → flags.toNat / 8 % 4 ≠ 3) ∧
      (will = none ↔ bitAt flags 2 = false) ∧
      (∀ w, will = some w → qosNum w.qos = flags.toNat / 8 % 4 ∧ w.retain = bitAt flags 5) ∧
      (∀ l, login = some l → (bitAt flags 7 = false → l.username = []) ∧
        (bitAt flags 6 = false → l.password = [])) := by
  obtain ⟨-, -, ht', hb⟩ := frame_ok_inv hf h
  cases p with
  | Connect c will login =>
    obtain ⟨flags, ps, s, ww, wl, trail, rfl, hc, -, -, -, hw, hl⟩ := hb
    refine ⟨c, will, login, flags, s ++ str c.client_id ++ ww ++ wl ++ trail, rfl,
      by simp [str, u16], ?_, ?_, ?_, ?_, ?_, ?_⟩
    · rw [bit_eq_iff (by omega)] at hc; rw [hc]; rfl
    · intro h0
      rw [bitAt_false] at h0
      cases will with
      | none => have := hw.1; omega
      | some w => have := hw.1; simp only [Nat.reducePow] at h0; omega
    · intro h1
      rw [bitAt_iff] at h1
      cases will with
      | none => have := hw.1; simp only [Nat.reducePow] at h1; omega
      | some w => have := hw.2.1; have := qosNum_lt w.qos; omega
    · rw [bitAt_false]
      cases will with
      | none => have := hw.1; simp; omega
      | some w => have := hw.1; simp; omega
    · rintro w rfl
      obtain ⟨-, h1, h2, -⟩ := hw
      refine ⟨h1, ?_⟩
      rw [bit_eq_iff (by omega)] at h2; rw [h2]; rfl
    · rintro l rfl
      obtain ⟨u, q, wu, wp, hu, hq, -, hl⟩ := hl
      split at hl
      · cases hl
      · cases hl
        refine ⟨fun h0 => ?_, fun h0 => ?_⟩ <;> rw [bitAt_false] at h0 <;>
          simp only [Nat.reducePow] at h0
        · rcases hu with ⟨h1, -⟩ | ⟨-, h1, -⟩
          · omega
          · exact h1
        · rcases hq with ⟨h1, -⟩ | ⟨-, h1, -⟩
          · omega
          · exact h1
  | _ => simp only [typeNum] at ht'; omega

/-- C32: a CONNECT with well-formed fields, for every flag byte. It is accepted, and every field
comes from exactly its place and flag, if the will bit is set or none of the other will bits, and
the will QoS is not 3; otherwise it is refused with the error that says why. Bit 0 of the flags
(reserved) and bytes behind the last field are ignored. -/
theorem C32_connect (mode : StrMode) (max : Option Nat) (b1 flags : UInt8) (keepAlive : UInt16)
    (s clientId ws topic message user pass trail f r : Bytes) (ps wps : List Property)
    (ht : b1.toNat / 16 = 1)
    (hf : FrameOf b1 (connectBody flags keepAlive s clientId ws topic message user pass trail) f)
    (hm : Admits max
      (connectBody flags keepAlive s clientId ws topic message user pass trail).length)
    (hs : SectionRep ps s) (hok : ∀ p ∈ ps, p.Ok mode Spec.ConnectProperties.allowed)
    (hc : TextField mode clientId)
    (hw : bitAt flags 2 = true → SectionRep wps ws ∧
      (∀ p ∈ wps, p.Ok mode Spec.LastWillProperties.allowed) ∧ topic.length ≤ 65535 ∧
      message.length ≤ 65535)
    (hu : bitAt flags 7 = true → TextField mode user)
    (hp : bitAt flags 6 = true → TextField mode pass) :
    (bitAt flags 2 = false → flags.toNat / 8 % 8 = 0 → Packet.read mode max (f ++ r) =
      (.ok (.Connect {
          keep_alive := keepAlive, client_id := clientId, clean_start := bitAt flags 1,
          properties := propsOf Spec.ConnectProperties.ofList ps }
        none (connectLogin flags user pass)), r)) ∧
    (∀ q, bitAt flags 2 = true → qosNum q = flags.toNat / 8 % 4 → Packet.read mode max (f ++ r) =
      (.ok (.Connect {
          keep_alive := keepAlive, client_id := clientId, clean_start := bitAt flags 1,
          properties := propsOf Spec.ConnectProperties.ofList ps }
        (some {
          topic := topic, message := message, qos := q, retain := bitAt flags 5,
          properties := propsOf Spec.LastWillProperties.ofList wps })
        (connectLogin flags user pass)), r)) ∧
    (bitAt flags 2 = false → flags.toNat / 8 % 8 ≠ 0 →
      Packet.read mode max (f ++ r) = (.err .IncorrectPacketFormat, r)) ∧
    (bitAt flags 2 = true → flags.toNat / 8 % 4 = 3 →
      Packet.read mode max (f ++ r) = (.err (.InvalidQoS 3), r)) := by
  have hsec := propSec_of_section' (ids := Spec.ConnectProperties.allowed) (mode := mode)
    (by decide) hs hok
  have hlogin : LoginRep mode flags.toNat (connectLogin flags user pass)
      ((if bitAt flags 7 then str user else []) ++ (if bitAt flags 6 then str pass else [])) := by
    refine ⟨if bitAt flags 7 then user else [], if bitAt flags 6 then pass else [], _, _, ?_, ?_,
      rfl, rfl⟩
    · by_cases h : bitAt flags 7 = true
      · rw [if_pos h, if_pos h]; exact .inl ⟨bitAt_iff.1 h, hu h, rfl⟩
      · rw [if_neg h, if_neg h]; exact .inr ⟨bitAt_false.1 (by simpa using h), rfl, rfl⟩
    · by_cases h : bitAt flags 6 = true
      · rw [if_pos h, if_pos h]; exact .inl ⟨bitAt_iff.1 h, hp h, rfl⟩
      · rw [if_neg h, if_neg h]; exact .inr ⟨bitAt_false.1 (by simpa using h), rfl, rfl⟩
  have herr : ∀ e, Fails (LastWill.read mode flags)
      ((if bitAt flags 2 then ws ++ str topic ++ str message else []) ++
        ((if bitAt flags 7 then str user else []) ++
        ((if bitAt flags 6 then str pass else []) ++ trail))) e →
      Packet.read mode max (f ++ r) = (.err e, r) := by
    intro e he
    refine frame_err (ty := .Connect) (m := Connect.read mode)
      (c := fun x => Packet.Connect x.1 x.2.1 x.2.2)
      (fun _ _ => rfl) hf hm ht (.inl (by simp [connectBody])) ?_ r
    intro fh hdr hh _ _
    unfold Connect.read
    refine .hdr hh ?_
    have e0 : connectBody flags keepAlive s clientId ws topic message user pass trail =
        str Connect.protocolName ++ (5 :: flags :: (u16 keepAlive ++ (s ++ (str clientId ++
        ((if bitAt flags 2 then ws ++ str topic ++ str message else []) ++
        ((if bitAt flags 7 then str user else []) ++
        ((if bitAt flags 6 then str pass else []) ++ trail))))))) := by
      simp [connectBody, str, u16, Connect.protocolName]
    rw [e0]
    refine .str protocolName_text (.u8 ?_)
    rw [if_neg (by decide), if_neg (by decide)]
    exact .u8 (.u16 (.step ((props_ok (ConnectProperties.read_eq mode)).2
      ⟨_, s, rfl, hsec, rfl⟩) (.str hc (.here he))))
  refine ⟨fun h2 h3 => ?_, fun q h2 hq => ?_, fun h2 h3 => ?_, fun h2 h3 => ?_⟩
  · refine frame_ok hf hm (show _ = typeNum (.Connect _ _ _) from ht) ?_ r
    refine ⟨flags, _, s, [], _, trail, ?_, bit_eq_bitAt rfl, hsec, propsOf_map.symm, hc, ?_,
      hlogin⟩
    · simp [connectBody, h2, str, u16]
    · have := bitAt_false.1 h2
      simp only [Nat.reducePow] at this
      exact ⟨by omega, rfl⟩
  · obtain ⟨w1, w2, w3, w4⟩ := hw h2
    refine frame_ok hf hm (show _ = typeNum (.Connect _ _ _) from ht) ?_ r
    refine ⟨flags, _, s, ws ++ str topic ++ str message, _, trail, ?_, bit_eq_bitAt rfl, hsec,
      propsOf_map.symm, hc, ?_, hlogin⟩
    · simp [connectBody, h2, str, u16]
    · exact ⟨bitAt_iff.1 h2, hq, bit_eq_bitAt rfl, w3, w4, _, ws,
        propSec_of_section' (by decide) w1 w2, propsOf_map.symm, rfl⟩
  · refine herr _ ?_
    obtain ⟨-, e2, e3, -⟩ := bits_connect flags
    unfold LastWill.read
    rw [if_pos (e2.2 (bitAt_false.1 h2)), if_pos (fun h => h3 (e3.1 h))]
    exact .throwE
  · refine herr _ ?_
    obtain ⟨w1, w2, w3, w4⟩ := hw h2
    obtain ⟨-, e2, -, e4, -⟩ := bits_connect flags
    have h2' := bitAt_iff.1 h2
    simp only [Nat.reducePow] at h2'
    unfold LastWill.read
    rw [if_pos h2, if_neg (fun h => by have := e2.1 h; omega), List.append_assoc,
      List.append_assoc]
    refine .step ((props_ok (LastWillProperties.read_eq mode)).2
      ⟨_, ws, rfl, propSec_of_section' (by decide) w1 w2, rfl⟩) (.bytes w3 (.bytes w4 ?_))
    have e5 : ((flags &&& 0b11000) >>> 3 : UInt8) = 3 :=
      UInt8.toNat_inj.1 (by rw [e4, h3]; rfl)
    rw [e5]
    exact .here .throwE

/-- C32: any other protocol name, and any other level, is refused. -/
theorem C32_protocol (mode : StrMode) (max : Option Nat) (b1 level : UInt8)
    (name rest f r : Bytes) (ht : b1.toNat / 16 = 1) (hn : TextField mode name)
    (hf : FrameOf b1 (str name ++ level :: rest) f)
    (hm : Admits max (str name ++ level :: rest).length) :
    (name ≠ [0x4D, 0x51, 0x54, 0x54] →
      Packet.read mode max (f ++ r) = (.err .InvalidProtocol, r)) ∧
    (name = [0x4D, 0x51, 0x54, 0x54] → level ≠ 5 →
      Packet.read mode max (f ++ r) = (.err (.InvalidProtocolLevel level), r)) := by
  refine ⟨fun h => ?_, fun h hl => ?_⟩
  · refine frame_err (ty := .Connect) (m := Connect.read mode)
      (c := fun x => Packet.Connect x.1 x.2.1 x.2.2)
      (fun _ _ => rfl) hf hm ht (.inl (by simp)) ?_ r
    intro fh hdr hh _ _
    unfold Connect.read
    refine .hdr hh (.str hn (.u8 ?_))
    have h' : name ≠ Connect.protocolName := h
    rw [if_pos h']; exact .throwE
  · refine frame_err (ty := .Connect) (m := Connect.read mode)
      (c := fun x => Packet.Connect x.1 x.2.1 x.2.2)
      (fun _ _ => rfl) hf hm ht (.inl (by simp)) ?_ r
    intro fh hdr hh _ _
    unfold Connect.read
    refine .hdr hh (.str hn (.u8 ?_))
    rw [if_neg (by simp [h, Connect.protocolName]), if_pos hl]; exact .throwE

/-- Will and login with flags 0xEE: user name, password, retain, QoS 1, will, clean start. -/
example : FrameOf 0x10 (connectBody 0xEE 60 [0] [0x63] [0] [0x74] [0x6D] [0x75] [0x70] [])
      [0x10, 27, 0, 4, 0x4D, 0x51, 0x54, 0x54, 5, 0xEE, 0, 60, 0, 0, 1, 0x63, 0, 0, 1, 0x74, 0, 1,
        0x6D, 0, 1, 0x75, 0, 1, 0x70] ∧
    bitAt 0xEE 2 = true ∧ (0xEE : UInt8).toNat / 8 % 4 = 1 ∧ SectionRep [] [0] :=
  ⟨frameOf_small (by decide +kernel) (by decide +kernel), by decide, by decide,
    sectionRep_enc _ (by decide) (by decide) (by decide +kernel)⟩

/-- Flags 0x20: will retain without will. -/
example : FrameOf 0x10 (connectBody 0x20 60 [0] [0x63] [] [] [] [] [] [])
      [0x10, 14, 0, 4, 0x4D, 0x51, 0x54, 0x54, 5, 0x20, 0, 60, 0, 0, 1, 0x63] ∧
    bitAt 0x20 2 = false ∧ (0x20 : UInt8).toNat / 8 % 8 ≠ 0 :=
  ⟨frameOf_small (by decide +kernel) (by decide +kernel), by decide, by decide⟩

/-! ### C33 -/

/-- C33, read: in an accepted frame of type 3, DUP, QoS and RETAIN are bits 3, 2-1 and 0 of the
first byte; the packet identifier is present behind the topic exactly if the QoS is above 0, and
then it is not zero. -/
theorem C33_accepted (mode : StrMode) (max : Option Nat) (b1 : UInt8) (bd f r r' : Bytes)
    (p : Packet) (hf : FrameOf b1 bd f) (ht : b1.toNat / 16 = 3)
    (h : Packet.read mode max (f ++ r) = (.ok p, r')) :
    ∃ (q : Publish) (s : Bytes), p = .Publish q ∧
      bd = publishBody q.topic (if q.qos = .AtMostOnce then [] else u16 q.pkid) s q.payload ∧
      q.dup = bitAt b1 3 ∧ qosNum q.qos = b1.toNat / 2 % 4 ∧ q.retain = bitAt b1 0 ∧
      (q.pkid = 0 ↔ q.qos = .AtMostOnce) := by
  obtain ⟨-, -, ht', hb⟩ := frame_ok_inv hf h
  cases p with
  | Publish q =>
    obtain ⟨h1, h2, h3, h4, -, ps, s, rfl, -, -⟩ := hb
    refine ⟨q, s, rfl, rfl, ?_, h2, ?_, h4⟩
    · rw [bit_eq_iff (by omega)] at h1; rw [h1]; rfl
    · rw [bit_eq_iff (by omega)] at h3; rw [h3]; simp [bitAt]
  | _ => simp only [typeNum] at ht'; omega

/-- C33, read: for every first byte of type 3 with QoS bits that are not 3, and well-formed fields,
the packet is exactly as the bits say. (The condition on subscription identifiers is the one of
C03.) -/
theorem C33_read (mode : StrMode) (max : Option Nat) (b1 : UInt8) (q : QoS) (pkid : UInt16)
    (topic s payload f r : Bytes) (ps : List Property) (ht : b1.toNat / 16 = 3)
    (hq : qosNum q = b1.toNat / 2 % 4) (hid : q = .AtMostOnce ↔ pkid = 0)
    (hf : FrameOf b1 (publishBody topic (if q = .AtMostOnce then [] else u16 pkid) s payload) f)
    (hm : Admits max
      (publishBody topic (if q = .AtMostOnce then [] else u16 pkid) s payload).length)
    (htp : TextField mode topic) (hs : SectionRep ps s)
    (hok : ∀ p ∈ ps, p.Ok mode Spec.PublishProperties.allowed) (hd : DriftSafe ps) :
    Packet.read mode max (f ++ r) =
      (.ok (.Publish {
        dup := bitAt b1 3, qos := q, retain := bitAt b1 0, topic := topic, pkid := pkid,
        payload := payload, properties := propsOf Spec.PublishProperties.ofList ps }), r) := by
  refine frame_ok hf hm (show _ = typeNum (.Publish _) from ht) ?_ r
  refine ⟨bit_eq_bitAt rfl, hq, ?_, hid.symm, htp, _, s, rfl, propSec_of_section hs hok hd,
    propsOf_map.symm⟩
  have := bit_eq_bitAt (x := b1) (i := 0) rfl
  simpa using this

/-- C33, read: QoS 3 is refused, whatever the body. -/
theorem C33_qos3 (mode : StrMode) (max : Option Nat) (b1 : UInt8) (bd f r : Bytes)
    (hf : FrameOf b1 bd f) (hm : Admits max bd.length) (ht : b1.toNat / 16 = 3) (hne : bd ≠ [])
    (hq : b1.toNat / 2 % 4 = 3) :
    Packet.read mode max (f ++ r) = (.err (.InvalidQoS 3), r) := by
  refine frame_err (ty := .Publish) (m := Publish.read mode) (c := Packet.Publish)
    (fun _ _ => rfl) hf hm ht (.inl hne) ?_ r
  intro fh hdr hh _ h1
  rw [Publish.read_eq, h1]
  obtain ⟨e1, -, -⟩ := bits_publish b1
  have e5 : ((b1 &&& 0b0110) >>> 1 : UInt8) = 3 := UInt8.toNat_inj.1 (by rw [e1, hq]; rfl)
  rw [e5]
  exact .here .throwE

/-- C33, read: a zero packet identifier above QoS 0 is refused, whatever follows. -/
theorem C33_zero_id (mode : StrMode) (max : Option Nat) (b1 : UInt8) (topic rest f r : Bytes)
    (hf : FrameOf b1 (str topic ++ u16 0 ++ rest) f)
    (hm : Admits max (str topic ++ u16 0 ++ rest).length) (ht : b1.toNat / 16 = 3)
    (hq : b1.toNat / 2 % 4 = 1 ∨ b1.toNat / 2 % 4 = 2) (htp : TextField mode topic) :
    Packet.read mode max (f ++ r) = (.err .PacketIdZero, r) := by
  refine frame_err (ty := .Publish) (m := Publish.read mode) (c := Packet.Publish)
    (fun _ _ => rfl) hf hm ht (.inl (by simp [u16])) ?_ r
  intro fh hdr hh hr h1
  rw [Publish.read_eq, h1]
  obtain ⟨e1, -, -⟩ := bits_publish b1
  obtain ⟨q, hq0, this⟩ : ∃ q, q ≠ .AtMostOnce ∧ qos ((b1 &&& 0b0110) >>> 1) = some q := by
    rcases hq with hq | hq
    · exact ⟨.AtLeastOnce, by simp, (qos_spec _ _).2 (by rw [e1, hq]; rfl)⟩
    · exact ⟨.ExactlyOnce, by simp, (qos_spec _ _).2 (by rw [e1, hq]; rfl)⟩
  rw [qosOrErr, this]
  refine .step rfl (.hdr hh ?_)
  unfold publishRest
  rw [List.append_assoc]
  refine .str htp ?_
  rw [if_neg hq0]
  refine .u16 ?_
  rw [if_pos ⟨hq0, rfl⟩]
  exact .throwE

/-- C33, write: what is appended for a PUBLISH has type 3, DUP, QoS and RETAIN in bits 3, 2-1 and 0
of the first byte, and the packet identifier behind the topic exactly if the QoS is above 0. -/
theorem C33_write (p : Publish) (b b' : Bytes) (n : Nat)
    (h : (Packet.Publish p).write b = (.ok n, b')) :
    ∃ b1 v s, b' = b ++ b1 :: (v ++
        publishBody p.topic (if p.qos = .AtMostOnce then [] else u16 p.pkid) s p.payload) ∧
      VarintRep v
        (publishBody p.topic (if p.qos = .AtMostOnce then [] else u16 p.pkid) s p.payload).length ∧
      b1.toNat / 16 = 3 ∧ bitAt b1 3 = p.dup ∧ b1.toNat / 2 % 4 = qosNum p.qos ∧
      bitAt b1 0 = p.retain ∧ (p.qos ≠ .AtMostOnce → p.pkid ≠ 0) := by
  obtain ⟨he, -, rfl⟩ := write_ok_inv h trivial (by simp [IsConnect])
  have hd := bit_lt p.dup; have hrt := bit_lt p.retain; have hq := qosNum_lt p.qos
  have h1 : (Spec.byte1 (.Publish p)).toNat =
      0x30 + 8 * bit p.dup + 2 * qosNum p.qos + bit p.retain := by
    rw [Spec.byte1, ofNat_small (by omega)]
  refine ⟨Spec.byte1 (.Publish p), varint (body (.Publish p)).length,
    optSection PublishProperties.toList p.properties, rfl, varint_rep he.2.2.1, ?_, ?_, ?_, ?_,
    he.2.2.2⟩
  · omega
  · have : bit p.dup = (Spec.byte1 (.Publish p)).toNat / 2 ^ 3 % 2 := by omega
    exact ((bit_eq_iff (by omega)).1 this).symm
  · omega
  · have : bit p.retain = (Spec.byte1 (.Publish p)).toNat / 2 ^ 0 % 2 := by omega
    exact ((bit_eq_iff (by omega)).1 this).symm

/-- C33, write: a PUBLISH above QoS 0 with packet identifier 0 is never written, and if nothing
else is wrong with it the error is `PacketIdZero`. -/
theorem C33_write_zero_id (p : Publish) (b : Bytes) (hq : p.qos ≠ .AtMostOnce) (h0 : p.pkid = 0) :
    (∀ n b', (Packet.Publish p).write b ≠ (.ok n, b')) ∧
    (p.topic.length ≤ 65535 → (∀ q ∈ props (.Publish p), q.Fits) →
      (body (.Publish p)).length ≤ maxVarint →
      ∃ b', (Packet.Publish p).write b = (.err .PacketIdZero, b')) := by
  have he : ¬ Encodable (.Publish p) := fun he => he.2.2.2 hq h0
  refine ⟨fun n b' h => he (encodable_of_ok h), fun h1 h2 h3 => ?_⟩
  obtain ⟨e, w, hr, hw⟩ := write_refuse he (by simp [Legacy])
  refine ⟨b ++ w, ?_⟩
  rw [hw b]
  rcases hr with ⟨-, s, hs, hl⟩ | ⟨-, hn⟩ | ⟨rfl, -⟩
  · exfalso
    rcases hs with hs | ⟨q, hq, hs⟩
    · simp only [fields, texts, List.append_nil, List.mem_singleton] at hs
      subst hs; omega
    · have := fits_strings (h2 q hq) s hs; omega
  · exfalso
    rcases hn with ⟨n, hn, hlt⟩ | hn
    · have := h2 _ hn
      simp only [Property.Fits] at this; omega
    · omega
  · rfl

example : FrameOf 0x3B (publishBody [0x74] (u16 7) [0] [1, 2]) [0x3B, 8, 0, 1, 0x74, 0, 7, 0, 1, 2] ∧
    (0x3B : UInt8).toNat / 2 % 4 = qosNum .AtLeastOnce ∧ bitAt 0x3B 3 = true ∧
    bitAt 0x3B 0 = true :=
  ⟨frameOf_small (by decide +kernel) (by decide +kernel), by decide, by decide, by decide⟩

example : Packet.read .utf8 none [0x36, 1, 0] = (.err (.InvalidQoS 3), []) ∧
    Packet.read .utf8 none [0x34, 6, 0, 1, 0x74, 0, 0, 0] = (.err .PacketIdZero, []) := by
  decide +kernel

/-! ### C34 -/

theorem optionsAre_iff {o : UInt8} {f : Filter} :
    OptionsAre o f ↔ o.toNat % 64 = filterOptions f := by
  obtain ⟨path, q, nl, pr, rr⟩ := f
  unfold OptionsAre bitAt
  cases q <;> cases nl <;> cases pr <;> cases rr <;>
    simp [filterOptions, qosNum, bit] <;> omega

theorem filtersAre_seq {mode : StrMode} {fs : List Filter} {w : Bytes} :
    SeqRep (FilterRep mode) fs w ↔
      ∃ items, w = filterItems items ∧ FiltersAre items fs ∧ ∀ i ∈ items, TextField mode i.1 := by
  constructor
  · intro h
    induction h with
    | nil => exact ⟨[], rfl, .nil, by simp⟩
    | @cons f w fs ws h1 _ ih =>
      obtain ⟨ht, o, ho, rfl⟩ := h1
      obtain ⟨items, rfl, h2, h3⟩ := ih
      refine ⟨(f.path, o) :: items, rfl, .cons rfl (optionsAre_iff.2 ho) h2, ?_⟩
      intro i hi
      rcases List.mem_cons.1 hi with rfl | hi
      · exact ht
      · exact h3 i hi
  · rintro ⟨items, rfl, h, h3⟩
    induction h with
    | nil => exact .nil
    | @cons path o f items fs hp ho _ ih =>
      refine .cons (w := str path ++ [o]) ⟨?_, o, optionsAre_iff.1 ho, by rw [hp]⟩
        (ih fun i hi => h3 i (by simp [hi]))
      rw [hp]; exact h3 (path, o) (by simp)

/-- C34, read: in an accepted frame of type 8 the filters are the items of the payload one by one,
with QoS from bits 1-0, no local from bit 2, retain as published from bit 3 and retain handling
from bits 5-4 of the options byte. -/
theorem C34_accepted (mode : StrMode) (max : Option Nat) (b1 : UInt8) (bd f r r' : Bytes)
    (p : Packet) (hf : FrameOf b1 bd f) (ht : b1.toNat / 16 = 8)
    (h : Packet.read mode max (f ++ r) = (.ok p, r')) :
    ∃ (q : Subscribe) (s : Bytes) (items : List (Bytes × UInt8)), p = .Subscribe q ∧
      bd = u16 q.pkid ++ s ++ filterItems items ∧ FiltersAre items q.filters ∧ items ≠ [] := by
  obtain ⟨-, -, ht', hb⟩ := frame_ok_inv hf h
  cases p with
  | Subscribe q =>
    obtain ⟨hne, ps, s, w, rfl, -, -, hw⟩ := hb
    obtain ⟨items, rfl, h1, -⟩ := filtersAre_seq.1 hw
    refine ⟨q, s, items, rfl, rfl, h1, ?_⟩
    rintro rfl
    cases hfs : q.filters with
    | nil => exact hne hfs
    | cons a l => rw [hfs] at h1; cases h1
  | _ => simp only [typeNum] at ht'; omega

/-- C34, read: items with QoS 0-2 and retain handling 0-2 (any bits 7 and 6) are all accepted. -/
theorem C34_read (mode : StrMode) (max : Option Nat) (b1 : UInt8) (pkid : UInt16)
    (s f r : Bytes) (ps : List Property) (items : List (Bytes × UInt8)) (fs : List Filter)
    (ht : b1.toNat / 16 = 8) (hf : FrameOf b1 (u16 pkid ++ s ++ filterItems items) f)
    (hm : Admits max (u16 pkid ++ s ++ filterItems items).length) (hs : SectionRep ps s)
    (hok : ∀ p ∈ ps, p.Ok mode Spec.SubscribeProperties.allowed) (hd : DriftSafe ps)
    (hi : ∀ i ∈ items, TextField mode i.1) (hne : items ≠ []) (hfs : FiltersAre items fs) :
    Packet.read mode max (f ++ r) =
      (.ok (.Subscribe {
        pkid := pkid, filters := fs,
        properties := propsOf Spec.SubscribeProperties.ofList ps }), r) := by
  refine frame_ok hf hm (show _ = typeNum (.Subscribe _) from ht) ?_ r
  refine ⟨?_, _, s, filterItems items, rfl, propSec_of_section hs hok hd, propsOf_map.symm,
    filtersAre_seq.2 ⟨items, rfl, hfs, hi⟩⟩
  cases hfs with
  | nil => exact absurd rfl hne
  | cons => simp

/-- Every options byte with QoS 0-2 and retain handling 0-2 stands for a filter. -/
theorem C34_options_total (path : Bytes) (o : UInt8) (hq : o.toNat % 4 ≠ 3)
    (hr : o.toNat / 16 % 4 ≠ 3) : ∃ f : Filter, f.path = path ∧ OptionsAre o f := by
  rcases optRest_spec o with ⟨q, nl, pr, rr, -, h⟩ | ⟨-, h⟩ | ⟨-, h, h'⟩
  · exact ⟨⟨path, q, nl, pr, rr⟩, rfl, optionsAre_iff.2 (h path)⟩
  · exact absurd h hr
  · exact absurd ‹_› hq

theorem filter_fails {mode : StrMode} {path : Bytes} {o : UInt8} {rest : Bytes}
    (ht : TextField mode path) :
    (o.toNat / 16 % 4 = 3 → Fails (Filter.readOne mode) (str path ++ [o] ++ rest)
      (.InvalidRetainForwardRule 3)) ∧
    (o.toNat / 16 % 4 ≠ 3 → o.toNat % 4 = 3 → Fails (Filter.readOne mode)
      (str path ++ [o] ++ rest) (.InvalidQoS 3)) := by
  rw [Filter.readOne_eq, List.append_assoc]
  have hno : ∀ q nl pr rr, o.toNat % 64 = filterOptions ⟨path, q, nl, pr, rr⟩ →
      o.toNat / 16 % 4 ≠ 3 ∧ o.toNat % 4 ≠ 3 := by
    intro q nl pr rr h
    cases q <;> cases nl <;> cases pr <;> cases rr <;> simp [filterOptions, qosNum, bit] at h <;>
      omega
  refine ⟨fun h => .str ht (.u8 ?_), fun h h' => .str ht (.u8 ?_)⟩
  all_goals
    rcases optRest_spec o with ⟨q, nl, pr, rr, h2, h3⟩ | ⟨h2, h3⟩ | ⟨h2, h3, h4⟩
    · have := hno _ _ _ _ (h3 path); omega
    · first | (rw [h2]; exact .here .throwE) | omega
    · first | (rw [h2]; exact .here .throwE) | omega

theorem filters_loop {mode : StrMode} {pre : List (Bytes × UInt8)} {fs : List Filter}
    (h : FiltersAre pre fs) (hi : ∀ i ∈ pre, TextField mode i.1) {path : Bytes} {o : UInt8}
    {rest : Bytes} {e : Err} (he : Fails (Filter.readOne mode) (str path ++ [o] ++ rest) e) :
    ∀ (fuel : Nat) (acc : List Filter), pre.length < fuel →
      Fails (Filter.readLoop mode fuel acc) (filterItems pre ++ (str path ++ [o] ++ rest)) e := by
  induction h with
  | nil =>
    intro fuel acc hl
    obtain ⟨fuel, rfl⟩ : ∃ k, fuel = k + 1 := ⟨fuel - 1, by simp at hl; omega⟩
    refine .step (show getBuf _ = (.ok _, _) from rfl) ?_
    rw [if_neg (by simp [filterItems])]
    exact .here he
  | @cons p x f items fs hp ho _ ih =>
    intro fuel acc hl
    obtain ⟨fuel, rfl⟩ : ∃ k, fuel = k + 1 := ⟨fuel - 1, by simp at hl; omega⟩
    refine .step (show getBuf _ = (.ok _, _) from rfl) ?_
    have e1 : filterItems ((p, x) :: items) = str p ++ [x] ++ filterItems items := rfl
    rw [e1, if_neg (by simp), List.append_assoc]
    refine .step (Filter.one_ok.2 ⟨str p ++ [x], rfl, ?_, x, optionsAre_iff.1 ho, by rw [hp]⟩) ?_
    · rw [hp]; exact hi (p, x) (by simp)
    · exact ih (fun i hi' => hi i (by simp [hi'])) fuel _ (by simp at hl; omega)

/-- C34, read: behind any number of good items, an options byte with retain handling 3 or QoS 3 is
refused, whatever follows. -/
theorem C34_refused (mode : StrMode) (max : Option Nat) (b1 o : UInt8) (pkid : UInt16)
    (s path rest f r : Bytes) (ps : List Property) (items : List (Bytes × UInt8)) (fs : List Filter)
    (ht : b1.toNat / 16 = 8)
    (hf : FrameOf b1 (u16 pkid ++ s ++ (filterItems items ++ (str path ++ [o] ++ rest))) f)
    (hm : Admits max
      (u16 pkid ++ s ++ (filterItems items ++ (str path ++ [o] ++ rest))).length)
    (hs : SectionRep ps s) (hok : ∀ p ∈ ps, p.Ok mode Spec.SubscribeProperties.allowed)
    (hd : DriftSafe ps) (hi : ∀ i ∈ items, TextField mode i.1) (hfs : FiltersAre items fs)
    (hp : TextField mode path) :
    (o.toNat / 16 % 4 = 3 →
      Packet.read mode max (f ++ r) = (.err (.InvalidRetainForwardRule 3), r)) ∧
    (o.toNat / 16 % 4 ≠ 3 → o.toNat % 4 = 3 →
      Packet.read mode max (f ++ r) = (.err (.InvalidQoS 3), r)) := by
  have hsec := propSec_of_section (ids := Spec.SubscribeProperties.allowed) (mode := mode) hs hok hd
  have key : ∀ e, Fails (Filter.readOne mode) (str path ++ [o] ++ rest) e →
      Packet.read mode max (f ++ r) = (.err e, r) := by
    intro e he
    refine frame_err (ty := .Subscribe) (m := Subscribe.read mode) (c := Packet.Subscribe)
      (fun _ _ => rfl) hf hm ht (.inl (by simp [u16])) ?_ r
    intro fh hdr hh _ _
    unfold Subscribe.read
    refine .hdr hh ?_
    rw [List.append_assoc]
    refine .u16 (.step ((props_ok (SubscribeProperties.read_eq mode)).2
      ⟨_, s, rfl, hsec, rfl⟩) (.here ?_))
    unfold Filter.read
    refine .step (show getBuf _ = (.ok _, _) from rfl) ?_
    refine filters_loop hfs hi he _ _ ?_
    have : ∀ l : List (Bytes × UInt8), l.length ≤ (filterItems l).length := by
      intro l
      induction l with
      | nil => simp
      | cons a l ih =>
        have e1 : filterItems (a :: l) = str a.1 ++ [a.2] ++ filterItems l := rfl
        rw [e1]; simp; omega
    have := this items
    simp only [List.length_append] at *
    omega
  exact ⟨fun h => key _ ((filter_fails hp).1 h), fun h h' => key _ ((filter_fails hp).2 h h')⟩

/-- C34, write: each filter is written as its path and an options byte with exactly these bits; the
reserved bits 7 and 6 are 0. -/
theorem C34_write (p : Subscribe) (b b' : Bytes) (n : Nat)
    (h : (Packet.Subscribe p).write b = (.ok n, b')) :
    ∃ v s items, b' = b ++ 0x82 :: (v ++ (u16 p.pkid ++ s ++ filterItems items)) ∧
      VarintRep v (u16 p.pkid ++ s ++ filterItems items).length ∧ FiltersAre items p.filters ∧
      ∀ i ∈ items, i.2.toNat < 64 := by
  obtain ⟨he, -, rfl⟩ := write_ok_inv h trivial (by simp [IsConnect])
  have key : ∀ l : List Filter, ∃ items, l.flatMap filterBytes = filterItems items ∧
      FiltersAre items l ∧ ∀ i ∈ items, i.2.toNat < 64 := by
    intro l
    induction l with
    | nil => exact ⟨[], rfl, .nil, by simp⟩
    | cons f l ih =>
      obtain ⟨items, h1, h2, h3⟩ := ih
      have hlt := filterOptions_lt f
      have ho : (UInt8.ofNat (filterOptions f)).toNat = filterOptions f := ofNat_small (by omega)
      refine ⟨(f.path, UInt8.ofNat (filterOptions f)) :: items, ?_, .cons rfl
        (optionsAre_iff.2 (by rw [ho]; omega)) h2, ?_⟩
      · rw [List.flatMap_cons, h1]; rfl
      · intro i hi
        rcases List.mem_cons.1 hi with rfl | hi
        · rw [ho]; exact hlt
        · exact h3 i hi
  obtain ⟨items, h1, h2, h3⟩ := key p.filters
  have e : body (.Subscribe p) =
      u16 p.pkid ++ optSection SubscribeProperties.toList p.properties ++ filterItems items := by
    rw [← h1]; rfl
  refine ⟨varint (body (.Subscribe p)).length,
    optSection SubscribeProperties.toList p.properties, items, ?_, ?_, h2, h3⟩
  · rw [← e]; rfl
  · rw [← e]; exact varint_rep he.2.2.1

/-- Two filters, the second with reserved bits set; and bad options behind a good item. -/
example : FrameOf 0x82 (u16 7 ++ [0] ++ filterItems [([0x61], 0x26), ([0x62], 0xD8)])
      [0x82, 11, 0, 7, 0, 0, 1, 0x61, 0x26, 0, 1, 0x62, 0xD8] ∧
    FiltersAre [([0x61], 0x26), ([0x62], 0xD8)]
      [{ path := [0x61], qos := .ExactlyOnce, nolocal := true, preserve_retain := false,
         retain_forward_rule := .Never },
       { path := [0x62], qos := .AtMostOnce, nolocal := false, preserve_retain := true,
         retain_forward_rule := .OnNewSubscribe }] :=
  ⟨frameOf_small (by decide +kernel) (by decide +kernel),
    .cons rfl (optionsAre_iff.2 (by decide)) (.cons rfl (optionsAre_iff.2 (by decide)) .nil)⟩

example : Packet.read .utf8 none [0x82, 11, 0, 7, 0, 0, 1, 0x61, 0x26, 0, 1, 0x62, 0x30] =
      (.err (.InvalidRetainForwardRule 3), []) ∧
    Packet.read .utf8 none [0x82, 11, 0, 7, 0, 0, 1, 0x61, 0x26, 0, 1, 0x62, 0x03] =
      (.err (.InvalidQoS 3), []) := by decide +kernel

/-! ### C38 -/

/-- C38: the four publish acknowledgements with remaining length 2. -/
theorem C38_short (mode : StrMode) (max : Option Nat) (b1 : UInt8) (pkid : UInt16) (f r : Bytes)
    (hf : FrameOf b1 (u16 pkid) f) (hm : Admits max 2) :
    (b1.toNat / 16 = 4 → Packet.read mode max (f ++ r) =
      (.ok (.PubAck { pkid := pkid, reason := .Success, properties := none }), r)) ∧
    (b1.toNat / 16 = 5 → Packet.read mode max (f ++ r) =
      (.ok (.PubRec { pkid := pkid, reason := .Success, properties := none }), r)) ∧
    (b1.toNat / 16 = 6 → Packet.read mode max (f ++ r) =
      (.ok (.PubRel { pkid := pkid, reason := .Success, properties := none }), r)) ∧
    (b1.toNat / 16 = 7 → Packet.read mode max (f ++ r) =
      (.ok (.PubComp { pkid := pkid, reason := .Success, properties := none }), r)) :=
  ⟨fun ht => frame_ok hf hm (show _ = typeNum (.PubAck _) from ht)
      ⟨[], by simp, .inl ⟨rfl, rfl, rfl⟩⟩ r,
    fun ht => frame_ok hf hm (show _ = typeNum (.PubRec _) from ht)
      ⟨[], by simp, .inl ⟨rfl, rfl, rfl⟩⟩ r,
    fun ht => frame_ok hf hm (show _ = typeNum (.PubRel _) from ht)
      ⟨[], by simp, .inl ⟨rfl, rfl, rfl⟩⟩ r,
    fun ht => frame_ok hf hm (show _ = typeNum (.PubComp _) from ht)
      ⟨[], by simp, .inl ⟨rfl, rfl, rfl⟩⟩ r⟩

/-- C38: the four publish acknowledgements with remaining length 3, for all reason bytes that MQTT 5
defines for the packet (the other ones are refused, see C23). -/
theorem C38_reason (mode : StrMode) (max : Option Nat) (b1 x : UInt8) (pkid : UInt16) (f r : Bytes)
    (hf : FrameOf b1 (u16 pkid ++ [x]) f) (hm : Admits max 3) :
    (∀ rc, b1.toNat / 16 = 4 → pubAckCode rc = x → Packet.read mode max (f ++ r) =
      (.ok (.PubAck { pkid := pkid, reason := rc, properties := none }), r)) ∧
    (∀ rc, b1.toNat / 16 = 5 → pubRecCode rc = x → Packet.read mode max (f ++ r) =
      (.ok (.PubRec { pkid := pkid, reason := rc, properties := none }), r)) ∧
    (∀ rc, b1.toNat / 16 = 6 → pubRelCode rc = x → Packet.read mode max (f ++ r) =
      (.ok (.PubRel { pkid := pkid, reason := rc, properties := none }), r)) ∧
    (∀ rc, b1.toNat / 16 = 7 → pubCompCode rc = x → Packet.read mode max (f ++ r) =
      (.ok (.PubComp { pkid := pkid, reason := rc, properties := none }), r)) :=
  ⟨fun rc ht h => frame_ok hf hm (show _ = typeNum (.PubAck _) from ht)
      ⟨[x], rfl, .inr (.inl ⟨by rw [h], rfl⟩)⟩ r,
    fun rc ht h => frame_ok hf hm (show _ = typeNum (.PubRec _) from ht)
      ⟨[x], rfl, .inr (.inl ⟨by rw [h], rfl⟩)⟩ r,
    fun rc ht h => frame_ok hf hm (show _ = typeNum (.PubRel _) from ht)
      ⟨[x], rfl, .inr (.inl ⟨by rw [h], rfl⟩)⟩ r,
    fun rc ht h => frame_ok hf hm (show _ = typeNum (.PubComp _) from ht)
      ⟨[x], rfl, .inr (.inl ⟨by rw [h], rfl⟩)⟩ r⟩

/-- C38: DISCONNECT with remaining length 0. -/
theorem C38_disconnect (mode : StrMode) (max : Option Nat) (f r : Bytes)
    (hf : FrameOf 0xE0 [] f) :
    Packet.read mode max (f ++ r) =
      (.ok (.Disconnect { reason_code := .NormalDisconnection, properties := none }), r) :=
  frame_ok hf (fun _ _ => Nat.zero_le _) (show _ = typeNum (.Disconnect _) from rfl)
    ⟨rfl, .inl ⟨rfl, rfl, rfl⟩⟩ r

/-- C38 does not hold for DISCONNECT with remaining length 1: it is never accepted. A reason that
MQTT 5 defines gives `InsufficientBytes(1)` (and the frame is consumed), another one
`InvalidConnectReturnCode`. -/
theorem C38_disconnect_exception (mode : StrMode) (max : Option Nat) (x : UInt8) (f r : Bytes)
    (hf : FrameOf 0xE0 [x] f) (hm : Admits max 1) :
    ((∃ rc, disconnectCode rc = x) →
      Packet.read mode max (f ++ r) = (.err (.InsufficientBytes 1), r)) ∧
    ((∀ rc, disconnectCode rc ≠ x) →
      Packet.read mode max (f ++ r) = (.err (.InvalidConnectReturnCode x), r)) := by
  constructor
  · rintro ⟨rc, rfl⟩
    refine frame_err (ty := .Disconnect) (m := Disconnect.read mode) (c := Packet.Disconnect)
      (fun _ _ => rfl) hf hm rfl (.inr rfl) ?_ r
    intro fh hdr hh hr h1
    unfold Disconnect.read
    rw [h1, hr]
    refine .hdr hh ?_
    rw [if_neg (by decide), if_neg (by decide), if_neg (by simp)]
    refine .u8 ?_
    rw [DisconnectReasonCode.ofU8_code]
    exact .step rfl (.props (DisconnectProperties.read_eq mode) ⟨_, rfl⟩)
  · intro hx
    refine frame_err (ty := .Disconnect) (m := Disconnect.read mode) (c := Packet.Disconnect)
      (fun _ _ => rfl) hf hm rfl (.inr rfl) ?_ r
    intro fh hdr hh hr h1
    have hbad : DisconnectReasonCode.ofU8 x = .err (.InvalidConnectReturnCode x) := by
      rcases DisconnectReasonCode.ofU8_spec x with ⟨rc, -, hrc⟩ | h
      · exact absurd hrc (hx rc)
      · exact h
    unfold Disconnect.read
    rw [h1, hr]
    refine .hdr hh ?_
    rw [if_neg (by decide), if_neg (by decide), if_neg (by simp)]
    refine .u8 ?_
    rw [hbad]
    exact .here .throwE

/-- C38 (partial): all short forms but that of DISCONNECT with a reason. -/
theorem C38_short_forms_partial (mode : StrMode) (max : Option Nat) (pkid : UInt16) (r : Bytes)
    (hm : Admits max 2) :
    Packet.read mode max ([0x40, 2] ++ u16 pkid ++ r) =
      (.ok (.PubAck { pkid := pkid, reason := .Success, properties := none }), r) ∧
    Packet.read mode max ([0x50, 2] ++ u16 pkid ++ r) =
      (.ok (.PubRec { pkid := pkid, reason := .Success, properties := none }), r) ∧
    Packet.read mode max ([0x62, 2] ++ u16 pkid ++ r) =
      (.ok (.PubRel { pkid := pkid, reason := .Success, properties := none }), r) ∧
    Packet.read mode max ([0x70, 2] ++ u16 pkid ++ r) =
      (.ok (.PubComp { pkid := pkid, reason := .Success, properties := none }), r) := by
  have hv : VarintRep [2] 2 := varintRep_small 2 (by decide)
  exact ⟨(C38_short mode max 0x40 pkid _ r ⟨[2], rfl, hv⟩ hm).1 rfl,
    (C38_short mode max 0x50 pkid _ r ⟨[2], rfl, hv⟩ hm).2.1 rfl,
    (C38_short mode max 0x62 pkid _ r ⟨[2], rfl, hv⟩ hm).2.2.1 rfl,
    (C38_short mode max 0x70 pkid _ r ⟨[2], rfl, hv⟩ hm).2.2.2 rfl⟩

example : FrameOf 0xE0 [0x89] [0xE0, 1, 0x89] ∧ disconnectCode .ServerBusy = 0x89 :=
  ⟨frameOf_small (by decide) (by decide +kernel), rfl⟩
example : Packet.read .utf8 none [0x40, 3, 0, 9, 0x10] =
    (.ok (.PubAck { pkid := 9, reason := .NoMatchingSubscribers, properties := none }), []) := by
  decide +kernel

end Props
