import Verif.Proofs.ReadSub
/-
Typed readers on a complete frame: CONNACK, PUBLISH, DISCONNECT, CONNECT.
-/
set_option linter.unusedSimpArgs false

namespace Mqtt

open Spec

variable {mode : StrMode} {β : Type}

/-! ### Bits -/

theorem bit_eq_iff {b : Bool} {n : Nat} (h : n < 2) : bit b = n ↔ b = decide (n = 1) := by
  rcases (by omega : n = 0 ∨ n = 1) with rfl | rfl <;> cases b <;> simp [bit]

theorem bits_publish (x : UInt8) :
    (((x &&& 0b0110) >>> 1 : UInt8)).toNat = x.toNat / 2 % 4 ∧
    ((x &&& 0b1000 : UInt8) != 0) = decide (x.toNat / 8 % 2 = 1) ∧
    ((x &&& 0b0001 : UInt8) != 0) = decide (x.toNat % 2 = 1) :=
  u8_all (P := fun x => (((x &&& 0b0110) >>> 1 : UInt8)).toNat = x.toNat / 2 % 4 ∧
    ((x &&& 0b1000 : UInt8) != 0) = decide (x.toNat / 8 % 2 = 1) ∧
    ((x &&& 0b0001 : UInt8) != 0) = decide (x.toNat % 2 = 1)) (by decide +kernel) x

theorem bits_connack (x : UInt8) : ((x &&& 0x01 : UInt8) == 1) = decide (x.toNat % 2 = 1) :=
  u8_all (P := fun x => ((x &&& 0x01 : UInt8) == 1) = decide (x.toNat % 2 = 1))
    (by decide +kernel) x

theorem bits_disconnect (x : UInt8) :
    (x >>> 4 : UInt8).toNat = x.toNat / 16 ∧ (x &&& 0b00001111 : UInt8).toNat = x.toNat % 16 :=
  u8_all (P := fun x => (x >>> 4 : UInt8).toNat = x.toNat / 16 ∧
    (x &&& 0b00001111 : UInt8).toNat = x.toNat % 16) (by decide +kernel) x

theorem bits_connect (x : UInt8) :
    ((x &&& 0b10 : UInt8) != 0) = decide (x.toNat / 2 % 2 = 1) ∧
    ((x &&& 0b100 : UInt8) = 0 ↔ x.toNat / 4 % 2 = 0) ∧
    ((x &&& 0b00111000 : UInt8) = 0 ↔ x.toNat / 8 % 8 = 0) ∧
    (((x &&& 0b11000) >>> 3 : UInt8)).toNat = x.toNat / 8 % 4 ∧
    ((x &&& 0b00100000 : UInt8) != 0) = decide (x.toNat / 32 % 2 = 1) ∧
    ((x &&& 0b10000000 : UInt8) = 0 ↔ x.toNat / 128 % 2 = 0) ∧
    ((x &&& 0b01000000 : UInt8) = 0 ↔ x.toNat / 64 % 2 = 0) :=
  u8_all (P := fun x => ((x &&& 0b10 : UInt8) != 0) = decide (x.toNat / 2 % 2 = 1) ∧
    ((x &&& 0b100 : UInt8) = 0 ↔ x.toNat / 4 % 2 = 0) ∧
    ((x &&& 0b00111000 : UInt8) = 0 ↔ x.toNat / 8 % 8 = 0) ∧
    (((x &&& 0b11000) >>> 3 : UInt8)).toNat = x.toNat / 8 % 4 ∧
    ((x &&& 0b00100000 : UInt8) != 0) = decide (x.toNat / 32 % 2 = 1) ∧
    ((x &&& 0b10000000 : UInt8) = 0 ↔ x.toNat / 128 % 2 = 0) ∧
    ((x &&& 0b01000000 : UInt8) = 0 ↔ x.toNat / 64 % 2 = 0)) (by decide +kernel) x

theorem qos_spec (x : UInt8) (q : QoS) : qos x = some q ↔ qosNum q = x.toNat := by
  unfold qos
  generalize x.toNat = n
  rcases n with _ | _ | _ | n <;> cases q <;> simp [qosNum]

theorem qos_none (x : UInt8) : qos x = none ↔ 2 < x.toNat := by
  unfold qos
  generalize x.toNat = n
  rcases n with _ | _ | _ | n <;> simp

theorem inv_qos {x : UInt8} {f : QoS → M β} {b r : Bytes} {c : β} :
    (qosOrErr x >>= f) b = (.ok c, r) ↔ ∃ q, qosNum q = x.toNat ∧ f q b = (.ok c, r) := by
  unfold qosOrErr
  cases h : qos x with
  | none =>
    constructor
    · intro h1; simp at h1
    · rintro ⟨q, hq, -⟩
      rw [← qos_spec, h] at hq; cases hq
  | some q =>
    simp only [pure_bind]
    constructor
    · intro h1; exact ⟨q, (qos_spec x q).1 h, h1⟩
    · rintro ⟨q', hq, h1⟩
      rw [← qos_spec, h] at hq; cases hq; exact h1

theorem Good.qosOrErr (x : UInt8) : Good (qosOrErr x) := by
  unfold Mqtt.qosOrErr
  split
  · exact Good.pure _
  · exact Good.throwE _

/-! ### ConnAck -/

theorem ConnAck.read_iff {fh : FixedHeader} {hdr body : Bytes} {p : ConnAck}
    (hh : hdr.length = fh.fixed_header_len) :
    (∃ r, ConnAck.read mode fh (hdr ++ body) = (.ok p, r)) ↔
      BodyRep mode fh.byte1.toNat body (.ConnAck p) := by
  unfold ConnAck.read
  rw [M.bind_ok (advance_hdr hh)]
  constructor
  · rintro ⟨r, h⟩
    replace h := inv_u8.1 h
    obtain ⟨flags, b1, rfl, h⟩ := h
    replace h := inv_u8.1 h
    obtain ⟨code, b2, rfl, h⟩ := h
    replace h := (inv_props (ConnAckProperties.read_eq mode)).1 h
    obtain ⟨ps, s, b3, rfl, hs, h⟩ := h
    replace h := inv_lift.1 h
    obtain ⟨c, hc, h⟩ := h
    obtain ⟨rfl, rfl⟩ := pure_ok.1 h
    refine ⟨flags, code, ps, s, r, by simp, ?_, ConnectReturnCode.ofU8_ok.1 hc, hs, rfl⟩
    rw [bit_eq_iff (by omega)]; exact bits_connack flags
  · rintro ⟨flags, code, ps, s, trail, rfl, hb, hc, hs, ho⟩
    refine ⟨trail, ?_⟩
    rw [List.append_assoc, List.append_assoc]
    refine inv_u8.2 ⟨_, _, rfl, inv_u8.2 ⟨_, _, rfl,
      (inv_props (ConnAckProperties.read_eq mode)).2 ⟨ps, s, _, rfl, hs,
        inv_lift.2 ⟨_, ConnectReturnCode.ofU8_ok.2 hc, ?_⟩⟩⟩⟩
    refine pure_ok.2 ⟨?_, rfl⟩
    rw [bit_eq_iff (by omega)] at hb
    obtain ⟨sp, c, o⟩ := p
    simp only at hb ho
    rw [bits_connack flags, hb, ho]

theorem ConnAck.read_good {fh : FixedHeader} {hdr body : Bytes}
    (hh : hdr.length = fh.fixed_header_len) :
    ∃ m : M ConnAck, Good m ∧ ConnAck.read mode fh (hdr ++ body) = m body := by
  refine ⟨_, ?_, M.bind_ok (advance_hdr hh)⟩
  exact Good.bind Good.read_u8 fun _ => Good.bind Good.read_u8 fun _ =>
    Good.bind (props_good (ConnAckProperties.read_eq mode)) fun _ =>
      Good.bind (Good.ConnectReturnCode _) fun _ => Good.pure _

/-! ### Disconnect -/

theorem Disconnect.read_iff {fh : FixedHeader} {hdr body : Bytes} {p : Disconnect}
    (hh : hdr.length = fh.fixed_header_len) (hr : fh.remaining_len = body.length)
    (ht : fh.byte1.toNat / 16 = 14) :
    (∃ r, Disconnect.read mode fh (hdr ++ body) = (.ok p, r)) ↔
      BodyRep mode fh.byte1.toNat body (.Disconnect p) := by
  obtain ⟨h1, h2⟩ := bits_disconnect fh.byte1
  have ht' : ¬ (fh.byte1 >>> 4 ≠ PacketType.Disconnect.toU8) := by
    rw [Classical.not_not, ← UInt8.toNat_inj, h1, ht]; rfl
  have hf : fh.byte1 &&& 0b00001111 ≠ 0x00 ↔ fh.byte1.toNat % 16 ≠ 0 := by
    rw [ne_eq, ← UInt8.toNat_inj, h2]; rfl
  unfold Disconnect.read
  rw [M.bind_ok (advance_hdr hh), if_neg ht', hr]
  by_cases hz : fh.byte1.toNat % 16 = 0
  · rw [if_neg (by rw [hf]; simpa using hz)]
    by_cases hb : body.length = 0
    · rw [if_pos hb]
      obtain rfl := List.eq_nil_of_length_eq_zero hb
      constructor
      · rintro ⟨r, h⟩
        obtain ⟨rfl, -⟩ := pure_ok.1 h
        exact ⟨hz, .inl ⟨rfl, rfl, rfl⟩⟩
      · rintro ⟨-, ⟨-, h3, h4⟩ | ⟨ps, s, trail, h, -⟩⟩
        · obtain ⟨rc, o⟩ := p
          simp only at h3 h4
          subst h3; subst h4
          exact ⟨[], rfl⟩
        · simp at h
    · rw [if_neg hb]
      constructor
      · rintro ⟨r, h⟩
        replace h := inv_u8.1 h
        obtain ⟨c, b1, rfl, h⟩ := h
        replace h := inv_lift.1 h
        obtain ⟨rc, hc, h⟩ := h
        replace h := (inv_props (DisconnectProperties.read_eq mode)).1 h
        obtain ⟨ps, s, b3, rfl, hs, h⟩ := h
        obtain ⟨rfl, rfl⟩ := pure_ok.1 h
        obtain rfl := DisconnectReasonCode.ofU8_ok.1 hc
        exact ⟨hz, .inr ⟨ps, s, r, by simp, hs, rfl⟩⟩
      · rintro ⟨-, ⟨rfl, -⟩ | ⟨ps, s, trail, rfl, hs, ho⟩⟩
        · simp at hb
        · refine ⟨trail, ?_⟩
          rw [List.append_assoc]
          refine inv_u8.2 ⟨_, _, rfl, inv_lift.2 ⟨_, DisconnectReasonCode.ofU8_code _,
            (inv_props (DisconnectProperties.read_eq mode)).2 ⟨ps, s, _, rfl, hs, ?_⟩⟩⟩
          obtain ⟨rc, o⟩ := p
          simp only at ho
          rw [← ho]; rfl
  · rw [if_pos (by rw [hf]; exact hz)]
    constructor
    · rintro ⟨r, h⟩; simp at h
    · rintro ⟨h, -⟩; exact absurd h hz

theorem Disconnect.read_good {fh : FixedHeader} {hdr body : Bytes}
    (hh : hdr.length = fh.fixed_header_len) :
    ∃ m : M Disconnect, Good m ∧ Disconnect.read mode fh (hdr ++ body) = m body := by
  refine ⟨_, ?_, M.bind_ok (advance_hdr hh)⟩
  exact Good.ite (Good.throwE _) (Good.ite (Good.throwE _) (Good.ite (Good.pure _)
    (Good.bind Good.read_u8 fun _ => Good.bind (Good.DisconnectReasonCode _) fun _ =>
      Good.bind (props_good (DisconnectProperties.read_eq mode)) fun _ => Good.pure _)))

/-! ### Publish -/

/-- The part of `Publish::read` after the header. -/
def publishRest (mode : StrMode) (x : UInt8) (q : QoS) : M Publish :=
  read_mqtt_string mode >>= fun topic =>
  (if q = .AtMostOnce then pure 0 else read_u16) >>= fun pkid =>
  if q ≠ .AtMostOnce ∧ pkid = 0 then throwE .PacketIdZero
  else PublishProperties.read mode >>= fun properties => getBuf >>= fun bytes =>
    pure { dup := (x &&& 0b1000) != 0, retain := (x &&& 0b0001) != 0, qos := q, pkid := pkid,
           topic := topic, payload := bytes, properties := properties }

theorem Publish.read_eq {fh : FixedHeader} : Publish.read mode fh =
    qosOrErr ((fh.byte1 &&& 0b0110) >>> 1) >>= fun q =>
    advance fh.fixed_header_len >>= fun _ => publishRest mode fh.byte1 q := by
  unfold Publish.read publishRest
  show (_ >>= _) = (_ >>= _)
  refine congrArg (M.bind _) (funext fun q => ?_)
  cases q <;> simp [pure_bind]

theorem Publish.read_iff {fh : FixedHeader} {hdr body : Bytes} {p : Publish}
    (hh : hdr.length = fh.fixed_header_len) :
    (∃ r, Publish.read mode fh (hdr ++ body) = (.ok p, r)) ↔
      BodyRep mode fh.byte1.toNat body (.Publish p) := by
  obtain ⟨e1, e2, e3⟩ := bits_publish fh.byte1
  rw [Publish.read_eq]
  simp only [inv_qos, e1]
  constructor
  · rintro ⟨r, q, hq, h⟩
    rw [M.bind_ok (advance_hdr hh)] at h
    unfold publishRest at h
    replace h := inv_str.1 h
    obtain ⟨topic, b1, rfl, ht, h⟩ := h
    replace h := M.bind_eq_ok.1 h
    obtain ⟨pkid, b2, h1, h⟩ := h
    have h1' : b1 = (if q = .AtMostOnce then [] else u16 pkid) ++ b2 ∧
        (q = .AtMostOnce → pkid = 0) := by
      by_cases h0 : q = .AtMostOnce
      · rw [if_pos h0, pure_ok] at h1
        simp [h0, h1.1, h1.2]
      · rw [if_neg h0, read_u16_ok] at h1
        simp [h0, h1]
    obtain ⟨rfl, h2⟩ := h1'
    by_cases h0 : q ≠ .AtMostOnce ∧ pkid = 0
    · rw [if_pos h0] at h; simp at h
    · rw [if_neg h0] at h
      replace h := (inv_props (PublishProperties.read_eq mode)).1 h
      obtain ⟨ps, s, b3, rfl, hs, h⟩ := h
      rw [getBuf_bind] at h
      obtain ⟨rfl, -⟩ := pure_ok.1 h
      refine ⟨?_, hq, ?_, ?_, ht, ps, s, by simp, hs, rfl⟩
      · rw [bit_eq_iff (by omega)]; exact e2
      · rw [bit_eq_iff (by omega)]; exact e3
      · constructor
        · intro hp
          by_cases hq0 : q = .AtMostOnce
          · exact hq0
          · exact absurd ⟨hq0, hp⟩ h0
        · exact h2
  · rintro ⟨hd, hq, hrt, hp, ht, ps, s, rfl, hs, ho⟩
    refine ⟨p.payload, p.qos, hq, ?_⟩
    rw [M.bind_ok (advance_hdr hh)]
    unfold publishRest
    rw [List.append_assoc, List.append_assoc]
    refine inv_str.2 ⟨_, _, rfl, ht, ?_⟩
    rw [M.bind_eq_ok]
    refine ⟨p.pkid, s ++ p.payload, ?_, ?_⟩
    · by_cases h0 : p.qos = .AtMostOnce
      · rw [if_pos h0, if_pos h0, hp.2 h0]; rfl
      · rw [if_neg h0, if_neg h0, read_u16_ok]
    · rw [if_neg (fun hc => hc.1 (hp.1 hc.2))]
      refine (inv_props (PublishProperties.read_eq mode)).2 ⟨ps, s, _, rfl, hs, ?_⟩
      rw [getBuf_bind]
      refine pure_ok.2 ⟨?_, rfl⟩
      rw [bit_eq_iff (by omega), ← e2] at hd
      rw [bit_eq_iff (by omega), ← e3] at hrt
      obtain ⟨d, q, rt, t, k, pl, o⟩ := p
      simp only at hd hrt ho
      rw [hd, hrt, ho]

theorem Good.publishRest (x : UInt8) (q : QoS) : Good (publishRest mode x q) := by
  refine Good.bind (Good.read_mqtt_string mode) fun _ =>
    Good.bind (Good.ite (Good.pure _) Good.read_u16) fun _ => Good.ite (Good.throwE _)
      (Good.bind (props_good (PublishProperties.read_eq mode)) fun _ =>
        Good.bind Good.getBuf fun _ => Good.pure _)

theorem Publish.read_good {fh : FixedHeader} {hdr body : Bytes}
    (hh : hdr.length = fh.fixed_header_len) :
    (∃ m : M Publish, Good m ∧ Publish.read mode fh (hdr ++ body) = m body) ∨
    Publish.read mode fh (hdr ++ body) =
      (.err (.InvalidQoS ((fh.byte1 &&& 0b0110) >>> 1)), hdr ++ body) := by
  rw [Publish.read_eq]
  unfold qosOrErr
  cases Mqtt.qos ((fh.byte1 &&& 0b0110) >>> 1) with
  | none => right; rfl
  | some q =>
    left
    refine ⟨publishRest mode fh.byte1 q, Good.publishRest fh.byte1 q, ?_⟩
    simp only [pure_bind]
    exact M.bind_ok (advance_hdr hh)

end Mqtt
