import Verif.Proofs.Forward
import Verif.Props.Decoded
import Verif.Props.Grammar
import Verif.Props.Layout
import Verif.Props.Writing
/-
C56: passing a packet on. A packet that arrived in a conforming frame can be written again, and the
new frame is not longer, with one exception.
-/
namespace Props

open Mqtt Spec

/-- The number of bytes a decoded packet takes when it is written into any buffer. -/
theorem decoded_added {mode : StrMode} {n : Nat} {p : Packet} (hf : Facts mode n p)
    (he : Encodable p) (b : Bytes) :
    ∃ k b', p.write b = (.ok k, b') ∧ k ≤ (encode p).length ∧
      b'.length = b.length + (encode p).length := by
  obtain ⟨k, b', h⟩ := (C20_ok_iff p b).2 he
  obtain ⟨k0, b0, h0⟩ := (C20_ok_iff p []).2 he
  have hk : k = k0 := by
    obtain ⟨_, _, e1, _⟩ := (C49_ok p b b' k).1 h
    obtain ⟨_, _, e2, _⟩ := (C49_ok p [] b0 k0).1 h0
    rw [e1, e2]
  refine ⟨k, b', h, ?_⟩
  obtain ⟨h1, h2⟩ := C10_added_iff p b b' k h
  have hw := hf.shape.2.2.2
  by_cases ho : Overlong p
  · cases p with
    | Disconnect d =>
      obtain ⟨hp, hr⟩ := ho
      have e : (encode (.Disconnect d)).length = 4 := by
        have hc : disconnectCode d.reason_code ≠ 0 := by
          intro h; apply hr; revert h; cases d.reason_code <;> decide
        have hb : (body (.Disconnect d)).length = 2 := by
          simp [body, ackTail, hp, hc, propSection_nil_len]
        have hv : varint 2 = [2] := by rw [varint, if_pos (by omega)]; rfl
        show (frame _ _).length = 4
        simp only [frame, hb, hv, List.length_cons, List.length_append, List.length_nil]
      have := h2 ⟨hp, hr⟩
      have h3 := (Disconnect.write_none hp hr b).symm.trans h
      simp only [Prod.mk.injEq, Out.ok.injEq] at h3
      rw [e]
      omega
    | _ => exact ho.elim
  · have hs : Sound p := by
      cases p with
      | Disconnect d =>
        cases hp : d.properties with
        | none =>
          simp only [Sound, hp]
          exact Classical.byContradiction fun hr => ho ⟨hp, hr⟩
        | some q => simp only [Sound, hp]; exact hw q hp
      | _ => trivial
    obtain ⟨-, h3⟩ := C31_conformance_partial p [] b0 k0 h0 hs (fun _ => rfl)
    have := h1.2 ho
    omega

/-- C56: a supported frame that conforms to MQTT 5 is decoded, and its packet is written into any
buffer with success. At most one more byte than in the frame is added, and none at all unless the
frame is an acknowledgement with a reason code and without property length. The number returned is
at most the number of bytes added. -/
theorem C56_forward (mode : StrMode) (max : Option Nat) (f r b : Bytes) (p : Packet)
    (ps : List Property) (n : Nat) (h : Conforms f p ps) (hs : Supported mode f p ps)
    (hn : RemLen f n) (hm : Admits max n) :
    Packet.read mode max (f ++ r) = (.ok p, r) ∧
    ∃ k b', p.write b = (.ok k, b') ∧ b.length + k ≤ b'.length ∧
      b'.length ≤ b.length + f.length + 1 ∧
      (b'.length ≤ b.length + f.length ↔ ¬ ShortAck f) := by
  have hread := C40_conforming_partial mode max f r p ps n h hn hm hs
  refine ⟨hread, ?_⟩
  obtain ⟨_, _, _, _, _, _, hf⟩ := read_facts hread
  obtain ⟨flags, bd, hb, hl, rfl⟩ := h
  have hd : ∀ d, p = .Disconnect d → bd.length ≠ 1 := by
    rintro d rfl hbd
    refine hs ?_
    have hv : varint 1 = [1] := by rw [varint, if_pos (by omega)]; rfl
    simp [hbd, hv]
  have hbody := forward_body hb hd
  have hbl : (body p).length ≤ maxVarint := by
    rcases hbody with h | ⟨_, _, _, _, _, h⟩
    · omega
    · rw [h]; decide
  obtain ⟨k, b', h1, h2, h3⟩ := decoded_added hf (decoded_encodable hf hbl) b
  refine ⟨k, b', h1, by omega, ?_⟩
  have e : (encode p).length = 1 + (varint (body p).length).length + (body p).length := by
    simp [encode, frame]; omega
  rcases hbody with h | ⟨i, code, rfl, hc, ht, h⟩
  · have hv := varint_length_mono h
    have hlen : b'.length ≤ b.length +
        (UInt8.ofNat (16 * typeNum p + flags) :: (varint bd.length ++ bd)).length := by
      simp only [List.length_cons, List.length_append]; omega
    refine ⟨by omega, fun _ => ?_, fun _ => hlen⟩
    rintro ⟨b1, i, j, code, he, ht, hc⟩
    have hv3 : varint 3 = [3] := by rw [varint, if_pos (by omega)]; rfl
    have hbd : bd = [i, j, code] := by
      simp only [List.cons.injEq] at he
      have hrep := varint_rep hl
      have hrep3 := varint_rep (n := 3) (by omega)
      have hu := varintRep_unique hrep hrep3 (r := bd) (r' := [i, j, code])
        (by rw [hv3]; exact he.2)
      exact hu.2.2
    subst hbd
    have hb1 : b1.toNat / 16 = typeNum p := by
      simp only [List.cons.injEq] at he
      have hfl := (body5_flags hb)
      rw [← he.1, ofNat_small (by omega)]
      omega
    rw [hb1] at ht
    have h4 := short_body hb ht hc
    rw [h4] at h
    simp at h
  · have hv3 : varint 3 = [3] := by rw [varint, if_pos (by omega)]; rfl
    have hv4 : varint 4 = [4] := by rw [varint, if_pos (by omega)]; rfl
    have hb3 : (u16 i ++ [code]).length = 3 := rfl
    have hlen : b'.length = b.length + 6 := by rw [h3, e, h, hv4]; rfl
    have hfl : (UInt8.ofNat (16 * typeNum p + flags) :: (varint (u16 i ++ [code]).length
        ++ (u16 i ++ [code]))).length = 5 := by rw [hb3, hv3]; rfl
    rw [hfl, hlen]
    refine ⟨by omega, fun hx => absurd hx (by omega), fun hx => absurd ?_ hx⟩
    obtain ⟨i1, i2, hi⟩ : ∃ i1 i2, u16 i = [i1, i2] := ⟨_, _, rfl⟩
    refine ⟨UInt8.ofNat (16 * typeNum p + flags), i1, i2, code, ?_, ?_, hc⟩
    · rw [hb3, hv3, hi]; rfl
    · have hfl := (body5_flags hb)
      rw [ofNat_small (by omega)]
      rw [show (16 * typeNum p + flags) / 16 = typeNum p by omega]
      exact ht

/-- C56, the exception: this PUBACK (no matching subscribers) has five bytes, and six when it is
passed on. -/
theorem C56_exception :
    Packet.read .utf8 none [0x40, 3, 0, 1, 0x10] =
      (.ok (.PubAck { pkid := 1, reason := .NoMatchingSubscribers, properties := none }), []) ∧
    Packet.write (.PubAck { pkid := 1, reason := .NoMatchingSubscribers, properties := none }) [] =
      (.ok 6, [0x40, 4, 0, 1, 0x10, 0]) ∧
    ShortAck [0x40, 3, 0, 1, 0x10] :=
  ⟨by decide +kernel, by decide +kernel, _, _, _, _, rfl, by decide, by decide⟩

/-- The hypotheses are met by the PUBACK of the exception, and by one that shrinks from six bytes
to four. -/
example :
    (Conforms [0x40, 3, 0, 1, 0x10]
        (.PubAck { pkid := 1, reason := .NoMatchingSubscribers, properties := none }) [] ∧
      RemLen [0x40, 3, 0, 1, 0x10] 3) ∧
    (Conforms [0x40, 4, 0, 1, 0, 0]
        (.PubAck { pkid := 1, reason := .Success, properties := none }) [] ∧
      RemLen [0x40, 4, 0, 1, 0, 0] 4 ∧ ¬ ShortAck [0x40, 4, 0, 1, 0, 0] ∧
      Packet.write (.PubAck { pkid := 1, reason := .Success, properties := none }) [] =
        (.ok 4, [0x40, 2, 0, 1])) := by
  have h := Body5.pubAck (pkid := 1) (rc := .Success) (ps := []) (s := [0]) (by decide)
    ⟨by decide +kernel, by decide, by simp, by simp, by simp⟩
  refine ⟨⟨⟨0, _, .pubAck3 (by decide), by decide, by decide +kernel⟩, ?_⟩,
    ⟨0, _, h, by decide, by decide +kernel⟩,
    ?_, ?_, by decide +kernel⟩
  · exact ⟨0x40, [3], [0, 1, 0x10], rfl, ⟨[], 3, rfl, by decide, by decide, by decide, rfl⟩, rfl⟩
  · exact ⟨0x40, [4], [0, 1, 0, 0], rfl, ⟨[], 4, rfl, by decide, by decide, by decide, rfl⟩, rfl⟩
  · rintro ⟨b1, i, j, c, h, -⟩
    simp at h

end Props
