import Verif.Proofs.WriteSub
/-
Writers of PUBLISH, CONNACK, PINGREQ, PINGRESP and DISCONNECT.
-/
set_option linter.unusedSimpArgs false

namespace Mqtt

open Spec

/-! ### Publish -/

theorem Publish.byte1_eq (p : Publish) :
    ((0b00110000 : UInt8) ||| boolU8 p.retain ||| (p.qos.toU8 <<< 1) ||| (boolU8 p.dup <<< 3))
      = byte1 (.Publish p) := by
  obtain ⟨d, q, r⟩ := p
  cases d <;> cases q <;> cases r <;>
    simp only [byte1, boolU8, QoS.toU8, qosNum, bit, Bool.false_eq_true, if_true, if_false] <;> rfl

theorem Publish.len_le (p : Publish) (hf : ∀ q ∈ props (.Publish p), FitsNum q) :
    p.len ≤ (body (.Publish p)).length := by
  have h := (lenSpec_opt PublishProperties.len_eq p.properties hf).1
  unfold Publish.len body
  simp only [List.length_append, str_length]
  by_cases h1 : p.qos = .AtMostOnce
  · simp [h1]; omega
  · by_cases h2 : p.pkid = 0 <;> simp [h1, h2] <;> omega

theorem Publish.lenSpec (p : Publish) (hf : ∀ q ∈ props (.Publish p), FitsNum q)
    (hp : p.qos ≠ .AtMostOnce → p.pkid ≠ 0) : LenSpec p.len (body (.Publish p)) := by
  have h := lenSpec_opt PublishProperties.len_eq p.properties hf
  have h1 : LenSpec (if p.qos ≠ .AtMostOnce ∧ p.pkid ≠ 0 then 2 else 0)
      (if p.qos = .AtMostOnce then [] else u16 p.pkid) := by
    by_cases h1 : p.qos = .AtMostOnce
    · rw [if_neg (by simp [h1]), if_pos h1]; exact LenSpec.refl []
    · rw [if_pos ⟨h1, hp h1⟩, if_neg h1]; exact LenSpec.refl (u16 p.pkid)
  exact (((LenSpec.of_eq (str_length p.topic).symm).add h1).add h).add (LenSpec.refl p.payload)

theorem Publish.write_wr (p : Publish) : Wr (Refusal (.Publish p)) p.write (Encodable (.Publish p))
    (encode (.Publish p)).length (encode (.Publish p)) := by
  have key : Wr (Refusal (.Publish p)) p.write
      ((p.topic.length ≤ 65535 ∧ (p.qos ≠ .AtMostOnce → p.pkid ≠ 0) ∧
        ∀ q ∈ props (.Publish p), q.Fits) ∧ (body (.Publish p)).length ≤ 268435455)
      (encode (.Publish p)).length (encode (.Publish p)) := by
    unfold encode
    rw [← Publish.byte1_eq]
    refine wr_frame
      (fun hf => Publish.lenSpec p (fun q hq => fitsNum_of_fits (hf.2.2 q hq)) hf.2.1)
      (refusal_len (Publish.len_le p)) fun hl => ?_
    have hg : gLen (optList Spec.PublishProperties.toList p.properties) ≤ 268435455 := by
      have := gLen_le_opt PublishProperties.len_eq p.properties
      unfold Publish.len at hl; omega
    have htail := Wr.bind
      (f := fun _ => putBytes p.payload >>= fun _ => pure (1 + (varint p.len).length + p.len))
      (wr_props (J := Refusal (.Publish p)) PublishProperties.len_eq PublishProperties.write_eq
        p.properties hg (fun q hq e he => refusal_prop hq he))
      (Wr.step (Emits.putBytes p.payload) (Wr.pure (1 + (varint p.len).length + p.len)))
    have htopic := wr_str (p := .Publish p) (s := p.topic) (by simp [fields, texts])
    by_cases hq : p.qos = .AtMostOnce
    · simp only [hq, ne_eq, not_true_eq_false, if_false]
      refine (Wr.bind htopic htail).congr ?_ (fun _ => rfl) ?_
      · simp [hq, props]
      · intro _; simp [body, hq]
    · by_cases hp : p.pkid = 0
      · simp only [hq, hp, ne_eq, not_false_eq_true, if_true]
        constructor
        · intro h; exact (h.2.1 trivial trivial).elim
        · intro _
          by_cases ht : p.topic.length ≤ 65535
          · exact ⟨_, _, .inr (.inr ⟨rfl, p, rfl, hq, hp⟩), Emits.bind (htopic.ok ht)
              (Emits.bind_err (Emits.throwE _))⟩
          · obtain ⟨e, w, hj, he⟩ := htopic.err ht
            exact ⟨e, w, hj, Emits.bind_err he⟩
      · simp only [hq, hp, ne_eq, not_false_eq_true, if_true, if_false]
        refine (Wr.bind htopic (Wr.step (emits_u16 _) htail)).congr ?_ (fun _ => rfl) ?_
        · simp [hq, hp, props]
        · intro _; simp [body, hq]
  refine key.congr ?_ (fun _ => rfl) (fun _ => rfl)
  simp [Encodable, fields, texts, maxVarint]; grind

/-! ### ConnAck -/

theorem ConnAck.code_eq (c : ConnectReturnCode) :
    c.code = match connAckCode c with | some n => .ok n | none => .panic := by cases c <;> rfl

theorem ConnAck.lenSpec (p : ConnAck) (hf : ∀ q ∈ props (.ConnAck p), FitsNum q) :
    LenSpec p.len (body (.ConnAck p)) :=
  ((LenSpec.of_eq (n := 1 + 1) rfl).add
    (lenSpec_opt ConnAckProperties.len_eq p.properties hf))

theorem ConnAck.write_wr (p : ConnAck) (hc : connAckCode p.code ≠ none) :
    Wr (Refusal (.ConnAck p)) p.write (Encodable (.ConnAck p))
    (encode (.ConnAck p)).length (encode (.ConnAck p)) := by
  obtain ⟨c, hc'⟩ := Option.ne_none_iff_exists'.1 hc
  have key : Wr (Refusal (.ConnAck p)) p.write
      ((∀ q ∈ props (.ConnAck p), q.Fits) ∧ (body (.ConnAck p)).length ≤ 268435455)
      (encode (.ConnAck p)).length (encode (.ConnAck p)) := by
    refine wr_frame (fun hf => ConnAck.lenSpec p fun q hq => fitsNum_of_fits (hf q hq))
      (refusal_len fun hf => (ConnAck.lenSpec p hf).1) fun hl => ?_
    have hg : gLen (optList Spec.ConnAckProperties.toList p.properties) ≤ 268435455 := by
      have := gLen_le_opt ConnAckProperties.len_eq p.properties
      unfold ConnAck.len at hl; omega
    have hcode : Emits (liftOut p.code.code) (.ok c) [] := by
      intro b; simp [ConnAck.code_eq, hc', liftOut]
    refine (Wr.step (emits_u8 _) (Wr.step hcode (Wr.step (emits_u8 _)
      (Wr.bind (f := fun _ => pure (1 + (varint p.len).length + p.len))
        (wr_props ConnAckProperties.len_eq ConnAckProperties.write_eq p.properties hg ?_)
        (Wr.pure (1 + (varint p.len).length + p.len)))))).congr ?_ (fun _ => rfl) ?_
    · intro q hq e he; exact refusal_prop hq he
    · simp [props]
    · intro _
      have : boolU8 p.session_present = UInt8.ofNat (bit p.session_present) := by
        cases p.session_present <;> rfl
      simp [body, hc', this]
  refine key.congr ?_ (fun _ => rfl) (fun _ => rfl)
  simp [Encodable, fields, texts, maxVarint, hc]

/-- A legacy return code: `write` panics (unless it already refused the length). -/
theorem ConnAck.write_panic (p : ConnAck) (hc : connAckCode p.code = none)
    (hl : p.len ≤ 268435455) :
    Emits p.write .panic
      (0x20 :: (varint p.len ++ [UInt8.ofNat (bit p.session_present)])) := by
  intro b
  have : boolU8 p.session_present = UInt8.ofNat (bit p.session_present) := by
    cases p.session_present <;> rfl
  unfold ConnAck.write
  rw [M.bind_ok (emits_u8 _ b), M.bind_ok (write_remaining_length_emits hl _),
    M.bind_ok (emits_u8 _ _)]
  rw [M.bind_panic (b' := b ++ [0x20] ++ varint p.len ++ [boolU8 p.session_present])]
  · simp [this]
  · simp [ConnAck.code_eq, hc, liftOut]

/-! ### Ping -/

theorem PingReq.write_wr : Wr (Refusal .PingReq) PingReq.write (Encodable .PingReq)
    (encode .PingReq).length (encode .PingReq) := by
  have hv : varint 0 = [0] := by rw [varint, if_pos (by omega)]; rfl
  refine (Wr.step (f := fun _ => pure 2) (Emits.putBytes _) (Wr.pure 2)).congr ?_ ?_ ?_
  · simp [Encodable, fields, texts, props, body]
  · intro _; simp [encode, frame, body, hv]
  · intro _; simp [encode, frame, body, hv, byte1]

theorem PingResp.write_wr : Wr (Refusal .PingResp) PingResp.write (Encodable .PingResp)
    (encode .PingResp).length (encode .PingResp) := by
  have hv : varint 0 = [0] := by rw [varint, if_pos (by omega)]; rfl
  refine (Wr.step (f := fun _ => pure 2) (Emits.putBytes _) (Wr.pure 2)).congr ?_ ?_ ?_
  · simp [Encodable, fields, texts, props, body]
  · intro _; simp [encode, frame, body, hv]
  · intro _; simp [encode, frame, body, hv, byte1]

/-! ### Disconnect -/

theorem Disconnect.code_eq (r : DisconnectReasonCode) : r.code = disconnectCode r := by
  cases r <;> rfl

theorem Disconnect.code_zero (r : DisconnectReasonCode) :
    disconnectCode r = 0 ↔ r = .NormalDisconnection := by
  cases r <;> simp [disconnectCode]

/-- The values for which this library writes the MQTT 5 encoding: a normal disconnection without
property record, or a record holding at least one property. -/
def Disconnect.Sound (d : Disconnect) : Prop :=
  match d.properties with
  | none => d.reason_code = .NormalDisconnection
  | some p => Spec.DisconnectProperties.toList p ≠ []

theorem gCost_pos (q : Property) : 1 ≤ gCost q := by
  unfold gCost; split
  · omega
  · simp [Property.enc]

theorem gLen_pos {l : List Property} (h : l ≠ []) : 1 ≤ gLen l := by
  cases l with
  | nil => exact absurd rfl h
  | cons x l =>
    have := gCost_pos x
    simp [gLen]; omega

theorem len_len_pos (n : Nat) : 1 ≤ len_len n := by
  unfold len_len; (repeat' split) <;> omega

theorem Disconnect.write_wr (p : Disconnect) (hs : p.Sound) :
    Wr (Refusal (.Disconnect p)) p.write (Encodable (.Disconnect p))
    (encode (.Disconnect p)).length (encode (.Disconnect p)) := by
  have hv : varint 0 = [0] := by rw [varint, if_pos (by omega)]; rfl
  unfold Disconnect.Sound at hs
  cases hp : p.properties with
  | none =>
    rw [hp] at hs; simp only at hs
    have hw : p.write = putU8 0xE0 >>= fun _ => putU8 0x00 >>= fun _ => pure 2 := by
      unfold Disconnect.write Disconnect.len
      simp [hs, hp]
    rw [hw]
    refine (Wr.step (emits_u8 _) (Wr.step (f := fun _ => pure 2) (emits_u8 _)
      (Wr.pure 2))).congr ?_ ?_ ?_
    · simp [Encodable, fields, texts, props, body, hp, hs, ackTail, optList, disconnectCode]
    · intro _; simp [encode, frame, body, hp, hs, ackTail, disconnectCode, hv]
    · intro _; simp [encode, frame, body, hp, hs, ackTail, disconnectCode, hv, byte1]
  | some q =>
    rw [hp] at hs; simp only at hs
    have hlen : p.len = 1 + (len_len q.len + q.len) := by
      unfold Disconnect.len; simp [hp]
    have hl2 : ¬ p.len = 2 := by
      have := len_len_pos q.len
      have := gLen_pos hs
      rw [← DisconnectProperties.len_eq] at this
      rw [hlen]; omega
    have hw : p.write = putU8 0xE0 >>= fun _ => write_remaining_length p.len >>= fun count =>
        putU8 p.reason_code.code >>= fun _ =>
        writeOptProps DisconnectProperties.write p.properties >>= fun _ =>
        pure (1 + count + p.len) := by
      unfold Disconnect.write
      simp only [if_neg hl2]
    have hb : body (.Disconnect p) = [disconnectCode p.reason_code] ++
        optSection Spec.DisconnectProperties.toList p.properties := by
      simp [body, hp, ackTail, optSection]
    have hls : (∀ q ∈ props (.Disconnect p), FitsNum q) → LenSpec p.len (body (.Disconnect p)) := by
      intro hf
      rw [hb]
      refine ((LenSpec.refl [disconnectCode p.reason_code]).add
        (lenSpec_opt DisconnectProperties.len_eq p.properties hf)).congr ?_ rfl
      rw [hlen, hp]; rfl
    have key : Wr (Refusal (.Disconnect p)) p.write
        ((∀ q ∈ props (.Disconnect p), q.Fits) ∧ (body (.Disconnect p)).length ≤ 268435455)
        (encode (.Disconnect p)).length (encode (.Disconnect p)) := by
      rw [hw]
      refine wr_frame (fun hf => hls fun q hq => fitsNum_of_fits (hf q hq))
        (refusal_len fun hf => (hls hf).1) fun hl => ?_
      have hg : gLen (optList Spec.DisconnectProperties.toList p.properties) ≤ 268435455 := by
        have := gLen_le_opt DisconnectProperties.len_eq p.properties
        rw [hp] at this ⊢
        simp only [optPropsLen] at this
        omega
      refine (Wr.step (emits_u8 _)
        (Wr.bind (f := fun _ => pure (1 + (varint p.len).length + p.len))
          (wr_props DisconnectProperties.len_eq DisconnectProperties.write_eq p.properties hg ?_)
          (Wr.pure (1 + (varint p.len).length + p.len)))).congr ?_ (fun _ => rfl) ?_
      · intro q hq e he; exact refusal_prop hq he
      · simp [props]
      · intro _; simp [hb, Disconnect.code_eq]
    refine key.congr ?_ (fun _ => rfl) (fun _ => rfl)
    simp [Encodable, fields, texts, maxVarint]

/-- Another reason without property record: the announced length (1) is short by one byte, and
so is the reported size. -/
theorem Disconnect.write_none {p : Disconnect} (hp : p.properties = none)
    (hr : p.reason_code ≠ .NormalDisconnection) :
    Emits p.write (.ok 3) [0xE0, 0x01, disconnectCode p.reason_code, 0x00] := by
  have hl : p.len = 1 := by unfold Disconnect.len; simp [hp, hr]
  have hv : varint 1 = [1] := by rw [varint, if_pos (by omega)]; rfl
  have hv0 : varint 0 = [0] := by rw [varint, if_pos (by omega)]; rfl
  have h1 := write_remaining_length_emits (n := 1) (by omega)
  have h0 := write_remaining_length_emits (n := 0) (by omega)
  intro b
  unfold Disconnect.write
  rw [M.bind_ok (emits_u8 _ b)]
  simp only [hl, hp, writeOptProps]
  rw [if_neg (by omega), M.bind_ok (h1 _), M.bind_ok (emits_u8 _ _), M.bind_ok
    (a := ()) (b' := b ++ [0xE0] ++ varint 1 ++ [p.reason_code.code] ++ varint 0)]
  · simp [hv, hv0, Disconnect.code_eq]
  · rw [M.bind_ok (h0 _)]; rfl

/-- A record without properties: a normal disconnection is written whatever the reason. -/
theorem Disconnect.write_empty {p : Disconnect} {q : DisconnectProperties}
    (hp : p.properties = some q) (hq : Spec.DisconnectProperties.toList q = []) :
    Emits p.write (.ok 2) [0xE0, 0x00] := by
  have hl : p.len = 2 := by
    unfold Disconnect.len
    simp only [hp]
    rw [DisconnectProperties.len_eq, hq]
    simp [gLen, len_len]
  intro b
  unfold Disconnect.write
  rw [M.bind_ok (emits_u8 _ b)]
  simp only [hl, if_true]
  rw [M.bind_ok (emits_u8 _ _)]
  simp

end Mqtt
