import Verif.Spec.Patch
import Verif.Props.Framing
import Verif.Props.Layout
import Verif.Props.Drift
import Verif.Props.Writing
/-
C59: an encoded packet can be patched in place.
-/
namespace Props

open Mqtt Spec

/-- C59, write: changing DUP and RETAIN of a PUBLISH changes only bits 3 and 0 of the first byte of
what is written; outcome and all other bytes stay the same (failing writes included). -/
theorem C59_flags_write (p : Publish) (dup retain : Bool) (b : Bytes) :
    ∃ o x x' w,
      (Packet.Publish p).write b = (o, b ++ x :: w) ∧
      (Packet.Publish { p with dup := dup, retain := retain }).write b = (o, b ++ x' :: w) ∧
      bitAt x' 3 = dup ∧ bitAt x' 0 = retain ∧
      ∀ i, i ≠ 3 → i ≠ 0 → bitAt x' i = bitAt x i := by
  have key : ∀ q : Publish, (Packet.Publish q).write b =
      (match emit (.num (announced (.Publish q)) :: bodyPieces (.Publish q)) with
        | (.ok _, w) => (.ok (1 + (varint (announced (.Publish q))).length
            + announced (.Publish q)), b ++ byte1 (.Publish q) :: w)
        | (.err e, w) => (.err e, b ++ byte1 (.Publish q) :: w)
        | (.panic, w) => (.panic, b ++ byte1 (.Publish q) :: w)
        | (.diverge, w) => (.diverge, b ++ byte1 (.Publish q) :: w)) := by
    intro q
    rw [C49_write]
    unfold writeResult layout
    rw [emit]
    simp only [Piece.written]
    generalize emit (.num (announced (.Publish q)) :: bodyPieces (.Publish q)) = z
    obtain ⟨o, w⟩ := z
    cases o <;> simp [patch]
  have h1 := key p
  have h2 := key { p with dup := dup, retain := retain }
  have e1 : bodyPieces (.Publish { p with dup := dup, retain := retain }) =
      bodyPieces (.Publish p) := rfl
  have e2 : announced (.Publish { p with dup := dup, retain := retain }) =
      announced (.Publish p) := rfl
  rw [e1, e2] at h2
  have hb : bitAt (byte1 (.Publish { p with dup := dup, retain := retain })) 3 = dup ∧
      bitAt (byte1 (.Publish { p with dup := dup, retain := retain })) 0 = retain ∧
      ∀ i, i ≠ 3 → i ≠ 0 →
        bitAt (byte1 (.Publish { p with dup := dup, retain := retain })) i =
          bitAt (byte1 (.Publish p)) i := by
    refine ⟨?_, ?_, ?_⟩
    · simp only [byte1]
      cases p.qos <;> cases dup <;> cases retain <;> decide
    · simp only [byte1]
      cases p.qos <;> cases dup <;> cases retain <;> decide
    · intro i h3 h0
      by_cases hi : i < 8
      · have : i = 1 ∨ i = 2 ∨ i = 4 ∨ i = 5 ∨ i = 6 ∨ i = 7 := by omega
        simp only [byte1]
        rcases this with rfl | rfl | rfl | rfl | rfl | rfl <;> cases p.qos <;> cases p.dup <;>
          cases p.retain <;> cases dup <;> cases retain <;> decide
      · have big : ∀ x : UInt8, bitAt x i = false := by
          intro x
          have hx : x.toNat < 2 ^ i :=
            Nat.lt_of_lt_of_le x.toNat_lt (Nat.pow_le_pow_right (by decide) (by omega))
          simp [bitAt, Nat.div_eq_of_lt hx]
        rw [big, big]
  generalize emit (.num (announced (.Publish p)) :: bodyPieces (.Publish p)) = z at h1 h2
  obtain ⟨o, w⟩ := z
  cases o with
  | ok u => exact ⟨_, _, _, w, h1, h2, hb⟩
  | err e => exact ⟨_, _, _, w, h1, h2, hb⟩
  | panic => exact ⟨_, _, _, w, h1, h2, hb⟩
  | diverge => exact ⟨_, _, _, w, h1, h2, hb⟩

/-- C59, read: changing DUP and RETAIN in the first byte of a PUBLISH frame changes only these two
fields of the packet that is read; a frame that is refused is still refused with the same error. -/
theorem C59_flags_read (mode : StrMode) (max : Option Nat) (b1 b1' : UInt8) (v body r : Bytes)
    (hv : VarintRep v body.length) (hm : Admits max body.length)
    (ht : b1.toNat / 16 = 3) (ht' : b1'.toNat / 16 = 3)
    (hq : b1'.toNat / 2 % 4 = b1.toNat / 2 % 4) :
    (∃ q : Publish,
      Packet.read mode max (b1 :: (v ++ (body ++ r))) = (.ok (.Publish q), r) ∧
      Packet.read mode max (b1' :: (v ++ (body ++ r))) =
        (.ok (.Publish { q with dup := bitAt b1' 3, retain := bitAt b1' 0 }), r)) ∨
    (∃ e,
      Packet.read mode max (b1 :: (v ++ (body ++ r))) = (.err e, r) ∧
      Packet.read mode max (b1' :: (v ++ (body ++ r))) = (.err e, r)) := by
  have hf : ∀ x : UInt8, FrameOf x body (x :: (v ++ body)) := fun x => ⟨v, rfl, hv⟩
  have hap : ∀ x : UInt8, x :: (v ++ (body ++ r)) = x :: (v ++ body) ++ r := by simp
  have hcons := C14_frame_consumed mode max (b1 :: (v ++ body)) r body.length
    ⟨b1, v, body, rfl, hv, rfl⟩ hm
  have htot := C13_read_total mode max (b1 :: (v ++ body) ++ r)
  rcases htot with ⟨p, hp⟩ | ⟨e, he⟩
  · left
    have h : Packet.read mode max (b1 :: (v ++ body) ++ r) = (.ok p, r) := Prod.ext hp hcons
    obtain ⟨-, -, h1, h2⟩ := frame_ok_inv (hf b1) h
    rw [ht] at h1
    cases p <;> simp only [typeNum] at h1 <;> try omega
    rename_i q
    refine ⟨q, by rw [hap]; exact h, ?_⟩
    rw [hap]
    refine frame_ok (hf b1') hm (by rw [ht']; rfl) ?_ r
    obtain ⟨hd, hq', hr, hrest⟩ := h2
    refine ⟨?_, by rw [hq]; exact hq', ?_, hrest⟩
    · simp only [bitAt, bit]
      have : b1'.toNat / 8 % 2 < 2 := Nat.mod_lt _ (by decide)
      by_cases h : b1'.toNat / 8 % 2 = 1
      · simp [h]
      · have h0 : b1'.toNat / 8 % 2 = 0 := by omega
        simp [h0]
    · simp only [bitAt, bit]
      by_cases h : b1'.toNat % 2 = 1
      · simp [h]
      · have h0 : b1'.toNat % 2 = 0 := by omega
        simp [h0]
  · right
    have h : Packet.read mode max (b1 :: (v ++ body) ++ r) = (.err e, r) := Prod.ext he hcons
    refine ⟨e, by rw [hap]; exact h, ?_⟩
    have h2 := frame_err_inv (hf b1) h
    refine read_err_iff.2 (.inr ⟨b1', v, body, rfl, hv, hm, ?_⟩)
    unfold FrameErr at h2 ⊢
    unfold BodyErr at h2 ⊢
    rw [ht] at h2
    rw [ht']
    simp only [PublishErr, hq] at h2 ⊢
    exact h2

theorem body_withId {p : Packet} {i : UInt16} (h : packetId p = some i) :
    ∃ w, ∀ k, body (withId k p) = beforeId p ++ u16 k ++ w ∧ body p = beforeId p ++ u16 i ++ w := by
  cases p <;> simp only [packetId] at h <;> try (cases h)
  case Publish q =>
    split at h
    · cases h
    · rename_i hq
      cases h
      exact ⟨optSection Spec.PublishProperties.toList q.properties ++ q.payload, fun k => by
        simp [withId, body, beforeId, hq]⟩
  all_goals
    first
    | exact ⟨_, fun k => ⟨rfl, rfl⟩⟩
    | (refine ⟨?_, fun k => ⟨?_, ?_⟩⟩
       rotate_left
       · simp only [withId, body, beforeId, List.nil_append, List.append_assoc]
         rfl
       · simp only [body, beforeId, List.nil_append, List.append_assoc])

/-- C59, write: of a packet that carries a packet identifier, written successfully, the identifier is
two bytes behind the fixed header (PUBLISH: behind the topic), and the same packet with another
identifier is written in the same way but for these two bytes. (A PUBLISH must not get the
identifier 0, see C33.) -/
theorem C59_id_write (p : Packet) (i k : UInt16) (b b' : Bytes) (n : Nat)
    (hid : packetId p = some i) (hk : IsPublish p → k ≠ 0) (hw : p.write b = (.ok n, b')) :
    ∃ x v w, VarintRep v (beforeId p ++ u16 i ++ w).length ∧
      b' = b ++ x :: (v ++ (beforeId p ++ u16 i ++ w)) ∧
      (withId k p).write b = (.ok n, b ++ x :: (v ++ (beforeId p ++ u16 k ++ w))) := by
  have he : Encodable p := (C20_ok_iff p b).1 ⟨n, b', hw⟩
  obtain ⟨w, hb⟩ := body_withId hid
  have hbk := (hb k).1
  have hbi := (hb k).2
  have hlen : (body (withId k p)).length = (body p).length := by
    rw [hbk, hbi]
    simp [u16]
  have hx : byte1 (withId k p) = byte1 p := by cases p <;> rfl
  have he' : Encodable (withId k p) := by
    obtain ⟨h1, h2, h3, h4⟩ := he
    refine ⟨?_, ?_, by omega, ?_⟩
    · have : fields (withId k p) = fields p := by cases p <;> rfl
      rw [this]
      exact h1
    · have : props (withId k p) = props p := by cases p <;> rfl
      rw [this]
      exact h2
    · cases p <;> first | trivial | exact h4 | exact fun _ => hk trivial
  have hs : Sound p ∧ Sound (withId k p) := by
    cases p <;> first | exact ⟨trivial, trivial⟩ | (simp [packetId] at hid)
  have hc : ¬ IsConnect p ∧ ¬ IsConnect (withId k p) := by
    cases p <;> first | exact ⟨fun h => h, fun h => h⟩ | (simp [packetId] at hid)
  have e1 := write_encode he hs.1 (b := b) (fun h => absurd h hc.1)
  have e2 := write_encode he' hs.2 (b := b) (fun h => absurd h hc.2)
  rw [hw] at e1
  simp only [Prod.mk.injEq, Out.ok.injEq] at e1
  have hl2 : (encode (withId k p)).length = (encode p).length := by
    simp only [encode, frame, hlen, hx, List.length_cons, List.length_append]
  refine ⟨byte1 p, varint (body p).length, w, ?_, ?_, ?_⟩
  · rw [← hbi]
    exact varint_rep he.2.2.1
  · rw [e1.2, ← hbi]
    rfl
  · rw [e2, hl2, e1.1, ← hbk]
    simp only [encode, frame, hlen, hx]

/-- C59, write: in a packet that carries no packet identifier (a PUBLISH at QoS 0) the value of the
field does not matter. -/
theorem C59_no_id (p : Packet) (k : UInt16) (b : Bytes) (hid : packetId p = none) :
    (withId k p).write b = p.write b := by
  cases p <;> first | rfl | (simp [packetId] at hid)
  rename_i q
  rw [C49_write, C49_write]
  have h1 : bodyPieces (withId k (.Publish q)) = bodyPieces (.Publish q) := by
    simp [withId, bodyPieces, hid]
  have h2 : announced (withId k (.Publish q)) = announced (.Publish q) := by
    unfold announced
    rw [h1]
    rfl
  unfold writeResult layout
  rw [h1, h2]
  rfl

/-- C59, read: of a frame that is accepted and carries a packet identifier, the identifier is two
bytes behind the fixed header (PUBLISH: behind the topic), and if they are replaced the frame is
still accepted, as the same packet with the other identifier. -/
theorem C59_id_read (mode : StrMode) (max : Option Nat) (b1 : UInt8) (v bd r r' : Bytes) (p : Packet)
    (i k : UInt16) (hv : VarintRep v bd.length) (hid : packetId p = some i)
    (hk : IsPublish p → k ≠ 0)
    (h : Packet.read mode max (b1 :: (v ++ (bd ++ r))) = (.ok p, r')) :
    ∃ w, bd = beforeId p ++ u16 i ++ w ∧
      Packet.read mode max (b1 :: (v ++ (beforeId p ++ u16 k ++ w ++ r))) =
        (.ok (withId k p), r') := by
  have hf : FrameOf b1 bd (b1 :: (v ++ bd)) := ⟨v, rfl, hv⟩
  have hap : b1 :: (v ++ (bd ++ r)) = b1 :: (v ++ bd) ++ r := by simp
  rw [hap] at h
  obtain ⟨rfl, hm, ht, hb⟩ := frame_ok_inv hf h
  have key : ∀ w, bd = beforeId p ++ u16 i ++ w →
      BodyRep mode b1.toNat (beforeId p ++ u16 k ++ w) (withId k p) →
      Packet.read mode max (b1 :: (v ++ (beforeId p ++ u16 k ++ w ++ r'))) =
        (.ok (withId k p), r') := by
    intro w hw hbk
    have hl : (beforeId p ++ u16 k ++ w).length = bd.length := by
      rw [hw]
      simp [u16]
    have := frame_ok (f := b1 :: (v ++ (beforeId p ++ u16 k ++ w))) (max := max)
      ⟨v, rfl, by rw [hl]; exact hv⟩ (by rw [hl]; exact hm)
      (by rw [ht]; cases p <;> rfl) hbk r'
    simpa using this
  have go : ∃ w, bd = beforeId p ++ u16 i ++ w ∧
      BodyRep mode b1.toNat (beforeId p ++ u16 k ++ w) (withId k p) := by
    cases p <;> simp only [packetId] at hid <;> try (cases hid)
    case Publish q =>
      split at hid
      · cases hid
      · rename_i hq
        cases hid
        obtain ⟨h1, h2, h3, h4, h5, ps, s, h6, h7, h8⟩ := hb
        rw [if_neg hq] at h6
        refine ⟨s ++ q.payload, by simpa [beforeId] using h6, h1, h2, h3, ?_, h5, ps, s, ?_, h7, h8⟩
        · exact ⟨fun e => absurd e (hk trivial), fun e => absurd e hq⟩
        · simp [beforeId, hq]
    case PubAck q => obtain ⟨w, h1, h2⟩ := hb; exact ⟨w, h1, w, rfl, h2⟩
    case PubRec q => obtain ⟨w, h1, h2⟩ := hb; exact ⟨w, h1, w, rfl, h2⟩
    case PubRel q => obtain ⟨w, h1, h2⟩ := hb; exact ⟨w, h1, w, rfl, h2⟩
    case PubComp q => obtain ⟨w, h1, h2⟩ := hb; exact ⟨w, h1, w, rfl, h2⟩
    case Subscribe q =>
      obtain ⟨hn, ps, s, w, h1, h2⟩ := hb
      exact ⟨s ++ w, by simpa [beforeId] using h1, hn, ps, s, w, by simp [beforeId, withId], h2⟩
    case SubAck q =>
      obtain ⟨hn, ps, s, h1, h2⟩ := hb
      exact ⟨s ++ q.return_codes.map subAckCode, by simpa [beforeId] using h1, hn, ps, s,
        by simp [beforeId, withId], h2⟩
    case Unsubscribe q =>
      obtain ⟨ps, s, w, h1, h2⟩ := hb
      exact ⟨s ++ w, by simpa [beforeId] using h1, ps, s, w, by simp [beforeId, withId], h2⟩
    case UnsubAck q =>
      obtain ⟨hn, ps, s, h1, h2⟩ := hb
      exact ⟨s ++ q.reasons.map unsubAckCode, by simpa [beforeId] using h1, hn, ps, s,
        by simp [beforeId, withId], h2⟩
  obtain ⟨w, h1, h2⟩ := go
  exact ⟨w, h1, key w h1 h2⟩

/-- The hypotheses can be met: a QoS 1 PUBLISH is resent with DUP set and another identifier. -/
example :
    let p : Publish := {
      dup := false, qos := .AtLeastOnce, retain := true, topic := [0x61], pkid := 7, payload := [1],
      properties := none }
    (Packet.Publish p).write [9] = (.ok 9, [9, 0x33, 7, 0, 1, 0x61, 0, 7, 0, 1]) ∧
    (Packet.Publish { p with dup := true }).write [9] =
      (.ok 9, [9, 0x3B, 7, 0, 1, 0x61, 0, 7, 0, 1]) ∧
    (withId 0x102 (.Publish p)).write [9] = (.ok 9, [9, 0x33, 7, 0, 1, 0x61, 1, 2, 0, 1]) ∧
    Packet.read .utf8 none [0x3B, 7, 0, 1, 0x61, 1, 2, 0, 1] =
      (.ok (.Publish { p with dup := true, pkid := 0x102 }), []) := by
  decide +kernel

end Props
