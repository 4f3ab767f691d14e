import Verif.Proofs.Typed
import Verif.Proofs.WritePacket
import Verif.Props.Samples
/-
C23: reason codes.
-/
namespace Props

open Mqtt Spec

/-- The eight tables of reason codes (MQTT 5, section 2.4 and the sections of the packets) are
injective: distinct reasons have distinct codes. -/
theorem C23_injective :
    (∀ r r' x, connAckCode r = some x → connAckCode r' = some x → r = r') ∧
    (∀ r r', pubAckCode r = pubAckCode r' → r = r') ∧
    (∀ r r', pubRecCode r = pubRecCode r' → r = r') ∧
    (∀ r r', pubRelCode r = pubRelCode r' → r = r') ∧
    (∀ r r', pubCompCode r = pubCompCode r' → r = r') ∧
    (∀ r r', subAckCode r = subAckCode r' → r = r') ∧
    (∀ r r', unsubAckCode r = unsubAckCode r' → r = r') ∧
    (∀ r r', disconnectCode r = disconnectCode r' → r = r') := by
  refine ⟨fun r r' x h h' => ?_, fun r r' h => ?_, fun r r' h => ?_, fun r r' h => ?_,
    fun r r' h => ?_, fun r r' h => ?_, fun r r' h => ?_, fun r r' h => ?_⟩
  · have := (ConnectReturnCode.ofU8_code h).symm.trans (ConnectReturnCode.ofU8_code h')
    simpa using this
  · have := PubAckReason.ofU8_code r
    rw [h, PubAckReason.ofU8_code r'] at this
    simpa using this.symm
  · have := PubRecReason.ofU8_code r
    rw [h, PubRecReason.ofU8_code r'] at this
    simpa using this.symm
  · have := PubRelReason.ofU8_code r
    rw [h, PubRelReason.ofU8_code r'] at this
    simpa using this.symm
  · have := PubCompReason.ofU8_code r
    rw [h, PubCompReason.ofU8_code r'] at this
    simpa using this.symm
  · have := SubscribeReasonCode.ofU8_code r
    rw [h, SubscribeReasonCode.ofU8_code r'] at this
    simpa using this.symm
  · have := UnsubAckReason.ofU8_code r
    rw [h, UnsubAckReason.ofU8_code r'] at this
    simpa using this.symm
  · have := DisconnectReasonCode.ofU8_code r
    rw [h, DisconnectReasonCode.ofU8_code r'] at this
    simpa using this.symm

/-- C23, PUBACK read: behind the packet identifier stands the code `x` (then nothing, or a
property section). If `x` is the code of a reason, this reason is returned, otherwise an error
that carries `x`. -/
theorem C23_puback (mode : StrMode) (max : Option Nat) (b1 x : UInt8) (pkid : UInt16)
    (tail f r : Bytes) (o : Option PubAckProperties)
    (hf : FrameOf b1 (u16 pkid ++ [x] ++ tail) f) (ht : b1.toNat / 16 = 4)
    (hm : Admits max (u16 pkid ++ [x] ++ tail).length)
    (hc : CodeTail mode Spec.PubAckProperties.allowed Spec.PubAckProperties.ofList o tail) :
    (∀ rc, pubAckCode rc = x → Packet.read mode max (f ++ r) =
      (.ok (.PubAck { pkid := pkid, reason := rc, properties := o }), r)) ∧
    ((∀ rc, pubAckCode rc ≠ x) → Packet.read mode max (f ++ r) =
      (.err (.InvalidConnectReturnCode x), r)) := by
  constructor
  · rintro rc rfl
    refine frame_ok hf hm (show _ = typeNum (.PubAck _) from ht) ?_ r
    refine ⟨[pubAckCode rc] ++ tail, by simp, ?_⟩
    rcases hc with ⟨rfl, rfl⟩ | ⟨ps, s, trail, rfl, hs, hok, rfl⟩
    · exact .inr (.inl ⟨rfl, rfl⟩)
    · exact .inr (.inr ⟨_, s, trail, by simp, propSec_of_section' (by decide) hs hok,
        propsOf_map.symm⟩)
  · intro hx
    refine frame_err (ty := .PubAck) (m := PubAck.read mode) (c := Packet.PubAck) (fun _ _ => rfl) hf hm
      ht (.inl (by simp [u16])) ?_ r
    intro fh hdr hh hr _
    have hbad : PubAckReason.ofU8 x = .err (.InvalidConnectReturnCode x) := by
      rcases PubAckReason.ofU8_spec x with ⟨rc, -, hrc⟩ | h
      · exact absurd hrc (hx rc)
      · exact h
    unfold PubAck.read
    refine .hdr hh ?_
    rw [hr, List.append_assoc]
    refine .u16 ?_
    rw [if_neg (by simp [u16])]
    refine .u8 ?_
    rcases hc with ⟨rfl, rfl⟩ | ⟨ps, s, trail, rfl, hs, hok, rfl⟩
    · rw [if_pos (by simp [u16]), hbad]
      exact .here .throwE
    · have hsec := propSec_of_section' (ids := Spec.PubAckProperties.allowed) (mode := mode)
        (by decide) hs hok
      have hpos := propSec_pos hsec
      rw [if_neg (by simp [u16]; omega)]
      refine .step (b1 := trail) ((props_ok (PubAckProperties.read_eq mode)).2
        ⟨_, s, by simp, hsec, rfl⟩) ?_
      rw [hbad]
      exact .here .throwE

/-- C23, PUBREC read: behind the packet identifier stands the code `x` (then nothing, or a
property section). If `x` is the code of a reason, this reason is returned, otherwise an error
that carries `x`. -/
theorem C23_pubrec (mode : StrMode) (max : Option Nat) (b1 x : UInt8) (pkid : UInt16)
    (tail f r : Bytes) (o : Option PubRecProperties)
    (hf : FrameOf b1 (u16 pkid ++ [x] ++ tail) f) (ht : b1.toNat / 16 = 5)
    (hm : Admits max (u16 pkid ++ [x] ++ tail).length)
    (hc : CodeTail mode Spec.PubRecProperties.allowed Spec.PubRecProperties.ofList o tail) :
    (∀ rc, pubRecCode rc = x → Packet.read mode max (f ++ r) =
      (.ok (.PubRec { pkid := pkid, reason := rc, properties := o }), r)) ∧
    ((∀ rc, pubRecCode rc ≠ x) → Packet.read mode max (f ++ r) =
      (.err (.InvalidConnectReturnCode x), r)) := by
  constructor
  · rintro rc rfl
    refine frame_ok hf hm (show _ = typeNum (.PubRec _) from ht) ?_ r
    refine ⟨[pubRecCode rc] ++ tail, by simp, ?_⟩
    rcases hc with ⟨rfl, rfl⟩ | ⟨ps, s, trail, rfl, hs, hok, rfl⟩
    · exact .inr (.inl ⟨rfl, rfl⟩)
    · exact .inr (.inr ⟨_, s, trail, by simp, propSec_of_section' (by decide) hs hok,
        propsOf_map.symm⟩)
  · intro hx
    refine frame_err (ty := .PubRec) (m := PubRec.read mode) (c := Packet.PubRec) (fun _ _ => rfl) hf hm
      ht (.inl (by simp [u16])) ?_ r
    intro fh hdr hh hr _
    have hbad : PubRecReason.ofU8 x = .err (.InvalidConnectReturnCode x) := by
      rcases PubRecReason.ofU8_spec x with ⟨rc, -, hrc⟩ | h
      · exact absurd hrc (hx rc)
      · exact h
    unfold PubRec.read
    refine .hdr hh ?_
    rw [hr, List.append_assoc]
    refine .u16 ?_
    rw [if_neg (by simp [u16])]
    refine .u8 ?_
    rcases hc with ⟨rfl, rfl⟩ | ⟨ps, s, trail, rfl, hs, hok, rfl⟩
    · rw [if_pos (by simp [u16]), hbad]
      exact .here .throwE
    · have hsec := propSec_of_section' (ids := Spec.PubRecProperties.allowed) (mode := mode)
        (by decide) hs hok
      have hpos := propSec_pos hsec
      rw [if_neg (by simp [u16]; omega)]
      refine .step (b1 := trail) ((props_ok (PubRecProperties.read_eq mode)).2
        ⟨_, s, by simp, hsec, rfl⟩) ?_
      rw [hbad]
      exact .here .throwE

/-- C23, PUBREL read: behind the packet identifier stands the code `x` (then nothing, or a
property section). If `x` is the code of a reason, this reason is returned, otherwise an error
that carries `x`. -/
theorem C23_pubrel (mode : StrMode) (max : Option Nat) (b1 x : UInt8) (pkid : UInt16)
    (tail f r : Bytes) (o : Option PubRelProperties)
    (hf : FrameOf b1 (u16 pkid ++ [x] ++ tail) f) (ht : b1.toNat / 16 = 6)
    (hm : Admits max (u16 pkid ++ [x] ++ tail).length)
    (hc : CodeTail mode Spec.PubRelProperties.allowed Spec.PubRelProperties.ofList o tail) :
    (∀ rc, pubRelCode rc = x → Packet.read mode max (f ++ r) =
      (.ok (.PubRel { pkid := pkid, reason := rc, properties := o }), r)) ∧
    ((∀ rc, pubRelCode rc ≠ x) → Packet.read mode max (f ++ r) =
      (.err (.InvalidConnectReturnCode x), r)) := by
  constructor
  · rintro rc rfl
    refine frame_ok hf hm (show _ = typeNum (.PubRel _) from ht) ?_ r
    refine ⟨[pubRelCode rc] ++ tail, by simp, ?_⟩
    rcases hc with ⟨rfl, rfl⟩ | ⟨ps, s, trail, rfl, hs, hok, rfl⟩
    · exact .inr (.inl ⟨rfl, rfl⟩)
    · exact .inr (.inr ⟨_, s, trail, by simp, propSec_of_section' (by decide) hs hok,
        propsOf_map.symm⟩)
  · intro hx
    refine frame_err (ty := .PubRel) (m := PubRel.read mode) (c := Packet.PubRel) (fun _ _ => rfl) hf hm
      ht (.inl (by simp [u16])) ?_ r
    intro fh hdr hh hr _
    have hbad : PubRelReason.ofU8 x = .err (.InvalidConnectReturnCode x) := by
      rcases PubRelReason.ofU8_spec x with ⟨rc, -, hrc⟩ | h
      · exact absurd hrc (hx rc)
      · exact h
    unfold PubRel.read
    refine .hdr hh ?_
    rw [hr, List.append_assoc]
    refine .u16 ?_
    rw [if_neg (by simp [u16])]
    refine .u8 ?_
    rcases hc with ⟨rfl, rfl⟩ | ⟨ps, s, trail, rfl, hs, hok, rfl⟩
    · rw [if_pos (by simp [u16]), hbad]
      exact .here .throwE
    · have hsec := propSec_of_section' (ids := Spec.PubRelProperties.allowed) (mode := mode)
        (by decide) hs hok
      have hpos := propSec_pos hsec
      rw [if_neg (by simp [u16]; omega)]
      refine .step (b1 := trail) ((props_ok (PubRelProperties.read_eq mode)).2
        ⟨_, s, by simp, hsec, rfl⟩) ?_
      rw [hbad]
      exact .here .throwE

/-- C23, PUBCOMP read: behind the packet identifier stands the code `x` (then nothing, or a
property section). If `x` is the code of a reason, this reason is returned, otherwise an error
that carries `x`. -/
theorem C23_pubcomp (mode : StrMode) (max : Option Nat) (b1 x : UInt8) (pkid : UInt16)
    (tail f r : Bytes) (o : Option PubCompProperties)
    (hf : FrameOf b1 (u16 pkid ++ [x] ++ tail) f) (ht : b1.toNat / 16 = 7)
    (hm : Admits max (u16 pkid ++ [x] ++ tail).length)
    (hc : CodeTail mode Spec.PubCompProperties.allowed Spec.PubCompProperties.ofList o tail) :
    (∀ rc, pubCompCode rc = x → Packet.read mode max (f ++ r) =
      (.ok (.PubComp { pkid := pkid, reason := rc, properties := o }), r)) ∧
    ((∀ rc, pubCompCode rc ≠ x) → Packet.read mode max (f ++ r) =
      (.err (.InvalidConnectReturnCode x), r)) := by
  constructor
  · rintro rc rfl
    refine frame_ok hf hm (show _ = typeNum (.PubComp _) from ht) ?_ r
    refine ⟨[pubCompCode rc] ++ tail, by simp, ?_⟩
    rcases hc with ⟨rfl, rfl⟩ | ⟨ps, s, trail, rfl, hs, hok, rfl⟩
    · exact .inr (.inl ⟨rfl, rfl⟩)
    · exact .inr (.inr ⟨_, s, trail, by simp, propSec_of_section' (by decide) hs hok,
        propsOf_map.symm⟩)
  · intro hx
    refine frame_err (ty := .PubComp) (m := PubComp.read mode) (c := Packet.PubComp) (fun _ _ => rfl) hf hm
      ht (.inl (by simp [u16])) ?_ r
    intro fh hdr hh hr _
    have hbad : PubCompReason.ofU8 x = .err (.InvalidConnectReturnCode x) := by
      rcases PubCompReason.ofU8_spec x with ⟨rc, -, hrc⟩ | h
      · exact absurd hrc (hx rc)
      · exact h
    unfold PubComp.read
    refine .hdr hh ?_
    rw [hr, List.append_assoc]
    refine .u16 ?_
    rw [if_neg (by simp [u16])]
    refine .u8 ?_
    rcases hc with ⟨rfl, rfl⟩ | ⟨ps, s, trail, rfl, hs, hok, rfl⟩
    · rw [if_pos (by simp [u16]), hbad]
      exact .here .throwE
    · have hsec := propSec_of_section' (ids := Spec.PubCompProperties.allowed) (mode := mode)
        (by decide) hs hok
      have hpos := propSec_pos hsec
      rw [if_neg (by simp [u16]; omega)]
      refine .step (b1 := trail) ((props_ok (PubCompProperties.read_eq mode)).2
        ⟨_, s, by simp, hsec, rfl⟩) ?_
      rw [hbad]
      exact .here .throwE

/-- C23, CONNACK read: the code is the second byte. -/
theorem C23_connack (mode : StrMode) (max : Option Nat) (b1 flags x : UInt8) (s trail f r : Bytes)
    (ps : List Property) (hf : FrameOf b1 ([flags] ++ [x] ++ s ++ trail) f)
    (ht : b1.toNat / 16 = 2) (hm : Admits max ([flags] ++ [x] ++ s ++ trail).length)
    (hs : SectionRep ps s) (hok : ∀ p ∈ ps, p.Ok mode Spec.ConnAckProperties.allowed) :
    (∀ rc, connAckCode rc = some x → Packet.read mode max (f ++ r) =
      (.ok (.ConnAck {
        session_present := decide (flags.toNat % 2 = 1), code := rc,
        properties := propsOf Spec.ConnAckProperties.ofList ps }), r)) ∧
    ((∀ rc, connAckCode rc ≠ some x) → Packet.read mode max (f ++ r) =
      (.err (.InvalidConnectReturnCode x), r)) := by
  have hsec := propSec_of_section' (ids := Spec.ConnAckProperties.allowed) (mode := mode)
    (by decide) hs hok
  constructor
  · intro rc hrc
    refine frame_ok hf hm (show _ = typeNum (.ConnAck _) from ht) ?_ r
    refine ⟨flags, x, _, s, trail, rfl, ?_, hrc, hsec, propsOf_map.symm⟩
    have : flags.toNat % 2 < 2 := Nat.mod_lt _ (by omega)
    unfold bit
    by_cases h : flags.toNat % 2 = 1 <;> simp [h] <;> omega
  · intro hx
    refine frame_err (ty := .ConnAck) (m := ConnAck.read mode) (c := Packet.ConnAck)
      (fun _ _ => rfl) hf hm ht (.inl (by simp)) ?_ r
    intro fh hdr hh _ _
    have hbad : ConnectReturnCode.ofU8 x = .err (.InvalidConnectReturnCode x) := by
      rcases ConnectReturnCode.ofU8_spec x with ⟨rc, -, hrc⟩ | h
      · exact absurd hrc (hx rc)
      · exact h
    unfold ConnAck.read
    refine .hdr hh ?_
    simp only [List.cons_append, List.nil_append]
    refine .u8 (.u8 (.step (b1 := trail) ((props_ok (ConnAckProperties.read_eq mode)).2
      ⟨_, s, rfl, hsec, rfl⟩) ?_))
    rw [hbad]
    exact .here .throwE

/-- C23, DISCONNECT read: the code is the first byte. An unknown code is refused whatever
follows. -/
theorem C23_disconnect (mode : StrMode) (max : Option Nat) (x : UInt8) (s trail f r : Bytes)
    (hf : FrameOf 0xE0 ([x] ++ s ++ trail) f) (hm : Admits max ([x] ++ s ++ trail).length) :
    (∀ rc ps, disconnectCode rc = x → SectionRep ps s →
      (∀ p ∈ ps, p.Ok mode Spec.DisconnectProperties.allowed) → Packet.read mode max (f ++ r) =
      (.ok (.Disconnect {
        reason_code := rc, properties := propsOf Spec.DisconnectProperties.ofList ps }), r)) ∧
    ((∀ rc, disconnectCode rc ≠ x) → Packet.read mode max (f ++ r) =
      (.err (.InvalidConnectReturnCode x), r)) := by
  constructor
  · rintro rc ps rfl hs hok
    refine frame_ok hf hm (show _ = typeNum (.Disconnect _) from rfl) ?_ r
    exact ⟨rfl, .inr ⟨_, s, trail, rfl, propSec_of_section' (by decide) hs hok,
      propsOf_map.symm⟩⟩
  · intro hx
    refine frame_err (ty := .Disconnect) (m := Disconnect.read mode) (c := Packet.Disconnect)
      (fun _ _ => rfl) hf hm rfl (.inr rfl) ?_ r
    intro fh hdr hh hr h1
    have hbad : DisconnectReasonCode.ofU8 x = .err (.InvalidConnectReturnCode x) := by
      rcases DisconnectReasonCode.ofU8_spec x with ⟨rc, -, hrc⟩ | h
      · exact absurd hrc (hx rc)
      · exact h
    unfold Disconnect.read
    rw [h1, hr]
    refine .hdr hh ?_
    rw [if_neg (by decide), if_neg (by decide), if_neg (by simp)]
    refine .u8 ?_
    rw [hbad]
    exact .here .throwE

theorem suback_loop (pre : List SubscribeReasonCode) (x : UInt8) (post : Bytes)
    (hx : ∀ rc, subAckCode rc ≠ x) : ∀ (fuel : Nat) (acc : List SubscribeReasonCode), pre.length < fuel →
      Fails (SubAck.readLoop fuel acc) (pre.map subAckCode ++ x :: post)
        (.InvalidSubscribeReasonCode x) := by
  induction pre with
  | nil =>
    intro fuel acc hl
    obtain ⟨fuel, rfl⟩ : ∃ k, fuel = k + 1 := ⟨fuel - 1, by simp at hl; omega⟩
    have hbad : SubscribeReasonCode.ofU8 x = .err (.InvalidSubscribeReasonCode x) := by
      rcases SubscribeReasonCode.ofU8_spec x with ⟨rc, -, hrc⟩ | h
      · exact absurd hrc (hx rc)
      · exact h
    refine .step (show getBuf _ = (.ok _, _) from rfl) ?_
    simp only [List.map_nil, List.nil_append, List.isEmpty_cons, Bool.false_eq_true, if_false]
    refine .u8 ?_
    rw [hbad]
    exact .here .throwE
  | cons rc pre ih =>
    intro fuel acc hl
    obtain ⟨fuel, rfl⟩ : ∃ k, fuel = k + 1 := ⟨fuel - 1, by simp at hl; omega⟩
    refine .step (show getBuf _ = (.ok _, _) from rfl) ?_
    simp only [List.map_cons, List.cons_append, List.isEmpty_cons, Bool.false_eq_true, if_false]
    refine .u8 ?_
    rw [SubscribeReasonCode.ofU8_code]
    exact .step (a := rc) rfl (ih fuel _ (by simp at hl; omega))

/-- C23, SUBACK read: one code per subscription. If all codes are known, the reasons are
returned in order, otherwise an error that carries the first unknown code. -/
theorem C23_suback (mode : StrMode) (max : Option Nat) (b1 : UInt8) (pkid : UInt16)
    (s codes f r : Bytes) (ps : List Property) (hf : FrameOf b1 (u16 pkid ++ s ++ codes) f)
    (ht : b1.toNat / 16 = 9) (hm : Admits max (u16 pkid ++ s ++ codes).length)
    (hs : SectionRep ps s) (hok : ∀ p ∈ ps, p.Ok mode Spec.SubAckProperties.allowed) :
    (∀ rcs, rcs ≠ [] → rcs.map subAckCode = codes → Packet.read mode max (f ++ r) =
      (.ok (.SubAck {
        pkid := pkid, return_codes := rcs,
        properties := propsOf Spec.SubAckProperties.ofList ps }), r)) ∧
    (∀ (pre : List SubscribeReasonCode) x post, codes = pre.map subAckCode ++ x :: post → (∀ rc, subAckCode rc ≠ x) →
      Packet.read mode max (f ++ r) = (.err (.InvalidSubscribeReasonCode x), r)) := by
  have hsec := propSec_of_section' (ids := Spec.SubAckProperties.allowed) (mode := mode)
    (by decide) hs hok
  constructor
  · rintro rcs hne rfl
    refine frame_ok hf hm (show _ = typeNum (.SubAck _) from ht) ?_ r
    exact ⟨hne, _, s, rfl, hsec, propsOf_map.symm⟩
  · rintro pre x post rfl hx
    refine frame_err (ty := .SubAck) (m := SubAck.read mode) (c := Packet.SubAck)
      (fun _ _ => rfl) hf hm ht (.inl (by simp)) ?_ r
    intro fh hdr hh _ _
    unfold SubAck.read
    refine .hdr hh ?_
    rw [List.append_assoc]
    refine .u16 (.step ((props_ok (SubAckProperties.read_eq mode)).2
      ⟨_, s, rfl, hsec, rfl⟩) (.step (show getBuf _ = (.ok _, _) from rfl) ?_))
    rw [if_neg (by simp)]
    exact .here (suback_loop pre x post hx _ _ (by simp; omega))

theorem unsuback_loop (pre : List UnsubAckReason) (x : UInt8) (post : Bytes)
    (hx : ∀ rc, unsubAckCode rc ≠ x) : ∀ (fuel : Nat) (acc : List UnsubAckReason), pre.length < fuel →
      Fails (UnsubAck.readLoop fuel acc) (pre.map unsubAckCode ++ x :: post)
        (.InvalidSubscribeReasonCode x) := by
  induction pre with
  | nil =>
    intro fuel acc hl
    obtain ⟨fuel, rfl⟩ : ∃ k, fuel = k + 1 := ⟨fuel - 1, by simp at hl; omega⟩
    have hbad : UnsubAckReason.ofU8 x = .err (.InvalidSubscribeReasonCode x) := by
      rcases UnsubAckReason.ofU8_spec x with ⟨rc, -, hrc⟩ | h
      · exact absurd hrc (hx rc)
      · exact h
    refine .step (show getBuf _ = (.ok _, _) from rfl) ?_
    simp only [List.map_nil, List.nil_append, List.isEmpty_cons, Bool.false_eq_true, if_false]
    refine .u8 ?_
    rw [hbad]
    exact .here .throwE
  | cons rc pre ih =>
    intro fuel acc hl
    obtain ⟨fuel, rfl⟩ : ∃ k, fuel = k + 1 := ⟨fuel - 1, by simp at hl; omega⟩
    refine .step (show getBuf _ = (.ok _, _) from rfl) ?_
    simp only [List.map_cons, List.cons_append, List.isEmpty_cons, Bool.false_eq_true, if_false]
    refine .u8 ?_
    rw [UnsubAckReason.ofU8_code]
    exact .step (a := rc) rfl (ih fuel _ (by simp at hl; omega))

/-- C23, UNSUBACK read: one code per subscription. If all codes are known, the reasons are
returned in order, otherwise an error that carries the first unknown code. -/
theorem C23_unsuback (mode : StrMode) (max : Option Nat) (b1 : UInt8) (pkid : UInt16)
    (s codes f r : Bytes) (ps : List Property) (hf : FrameOf b1 (u16 pkid ++ s ++ codes) f)
    (ht : b1.toNat / 16 = 11) (hm : Admits max (u16 pkid ++ s ++ codes).length)
    (hs : SectionRep ps s) (hok : ∀ p ∈ ps, p.Ok mode Spec.UnsubAckProperties.allowed) :
    (∀ rcs, rcs ≠ [] → rcs.map unsubAckCode = codes → Packet.read mode max (f ++ r) =
      (.ok (.UnsubAck {
        pkid := pkid, reasons := rcs,
        properties := propsOf Spec.UnsubAckProperties.ofList ps }), r)) ∧
    (∀ (pre : List UnsubAckReason) x post, codes = pre.map unsubAckCode ++ x :: post → (∀ rc, unsubAckCode rc ≠ x) →
      Packet.read mode max (f ++ r) = (.err (.InvalidSubscribeReasonCode x), r)) := by
  have hsec := propSec_of_section' (ids := Spec.UnsubAckProperties.allowed) (mode := mode)
    (by decide) hs hok
  constructor
  · rintro rcs hne rfl
    refine frame_ok hf hm (show _ = typeNum (.UnsubAck _) from ht) ?_ r
    exact ⟨hne, _, s, rfl, hsec, propsOf_map.symm⟩
  · rintro pre x post rfl hx
    refine frame_err (ty := .UnsubAck) (m := UnsubAck.read mode) (c := Packet.UnsubAck)
      (fun _ _ => rfl) hf hm ht (.inl (by simp)) ?_ r
    intro fh hdr hh _ _
    unfold UnsubAck.read
    refine .hdr hh ?_
    rw [List.append_assoc]
    refine .u16 (.step ((props_ok (UnsubAckProperties.read_eq mode)).2
      ⟨_, s, rfl, hsec, rfl⟩) (.step (show getBuf _ = (.ok _, _) from rfl) ?_))
    rw [if_neg (by simp)]
    exact .here (unsuback_loop pre x post hx _ _ (by simp; omega))

theorem frameOf_encode {p : Packet} (h : Encodable p) : FrameOf (byte1 p) (body p) (encode p) :=
  ⟨_, rfl, encode_body_rep p h⟩

/-- C23, written codes: the code of the reason stands in its place in what `write` appends (an
acknowledgement in short form carries none: its reason is success; so does the DISCONNECT of two
bytes; the DISCONNECTs that C08 excludes are written wrongly). -/
theorem C23_written (b b' : Bytes) (n : Nat) :
    (∀ p, (Packet.ConnAck p).write b = (.ok n, b') → ∃ f x s, connAckCode p.code = some x ∧
      FrameOf 0x20 ([UInt8.ofNat (bit p.session_present), x] ++ s) f ∧ b' = b ++ f) ∧
    (∀ p, (Packet.PubAck p).write b = (.ok n, b') →
      (p.reason = .Success ∧ p.properties = none ∧ b' = b ++ 0x40 :: 2 :: u16 p.pkid) ∨
      ∃ f s, FrameOf 0x40 (u16 p.pkid ++ [pubAckCode p.reason] ++ s) f ∧ b' = b ++ f) ∧
    (∀ p, (Packet.PubRec p).write b = (.ok n, b') →
      (p.reason = .Success ∧ p.properties = none ∧ b' = b ++ 0x50 :: 2 :: u16 p.pkid) ∨
      ∃ f s, FrameOf 0x50 (u16 p.pkid ++ [pubRecCode p.reason] ++ s) f ∧ b' = b ++ f) ∧
    (∀ p, (Packet.PubRel p).write b = (.ok n, b') →
      (p.reason = .Success ∧ p.properties = none ∧ b' = b ++ 0x62 :: 2 :: u16 p.pkid) ∨
      ∃ f s, FrameOf 0x62 (u16 p.pkid ++ [pubRelCode p.reason] ++ s) f ∧ b' = b ++ f) ∧
    (∀ p, (Packet.PubComp p).write b = (.ok n, b') →
      (p.reason = .Success ∧ p.properties = none ∧ b' = b ++ 0x70 :: 2 :: u16 p.pkid) ∨
      ∃ f s, FrameOf 0x70 (u16 p.pkid ++ [pubCompCode p.reason] ++ s) f ∧ b' = b ++ f) ∧
    (∀ p, (Packet.SubAck p).write b = (.ok n, b') →
      ∃ f s, FrameOf 0x90 (u16 p.pkid ++ s ++ p.return_codes.map subAckCode) f ∧ b' = b ++ f) ∧
    (∀ p, (Packet.UnsubAck p).write b = (.ok n, b') →
      ∃ f s, FrameOf 0xB0 (u16 p.pkid ++ s ++ p.reasons.map unsubAckCode) f ∧ b' = b ++ f) ∧
    (∀ p, Sound (.Disconnect p) → (Packet.Disconnect p).write b = (.ok n, b') →
      (p.reason_code = .NormalDisconnection ∧ p.properties = none ∧ b' = b ++ [0xE0, 0]) ∨
      ∃ f s, FrameOf 0xE0 ([disconnectCode p.reason_code] ++ s) f ∧ b' = b ++ f) := by
  have v2 : varint 2 = [2] := by rw [varint]; rfl
  refine ⟨fun p h => ?_, fun p h => ?_, fun p h => ?_, fun p h => ?_, fun p h => ?_,
    fun p h => ?_, fun p h => ?_, fun p hs h => ?_⟩
  · obtain ⟨he, -, rfl⟩ := write_ok_inv h trivial (fun h => h.elim)
    obtain ⟨x, hx⟩ := Option.ne_none_iff_exists'.1 he.2.2.2
    refine ⟨_, x, optSection Spec.ConnAckProperties.toList p.properties, hx, ?_, rfl⟩
    have := frameOf_encode he
    simpa only [byte1, body, hx, Option.getD_some] using this
  · obtain ⟨he, -, rfl⟩ := write_ok_inv h trivial (fun h => h.elim)
    have hf := frameOf_encode he
    simp only [byte1, body, ackTail] at hf
    cases hp : p.properties with
    | none =>
      rw [hp] at hf
      cases hr : p.reason with
      | Success =>
        left; simp [encode, frame, byte1, body, ackTail, hp, hr, pubAckCode, u16, v2]
      | _ =>
        right
        rw [hr] at hf
        exact ⟨_, propSection [], by simpa [pubAckCode] using hf, rfl⟩
    | some q =>
      rw [hp] at hf
      right; exact ⟨_, _, by simpa using hf, rfl⟩
  · obtain ⟨he, -, rfl⟩ := write_ok_inv h trivial (fun h => h.elim)
    have hf := frameOf_encode he
    simp only [byte1, body, ackTail] at hf
    cases hp : p.properties with
    | none =>
      rw [hp] at hf
      cases hr : p.reason with
      | Success =>
        left; simp [encode, frame, byte1, body, ackTail, hp, hr, pubRecCode, u16, v2]
      | _ =>
        right
        rw [hr] at hf
        exact ⟨_, propSection [], by simpa [pubRecCode] using hf, rfl⟩
    | some q =>
      rw [hp] at hf
      right; exact ⟨_, _, by simpa using hf, rfl⟩
  · obtain ⟨he, -, rfl⟩ := write_ok_inv h trivial (fun h => h.elim)
    have hf := frameOf_encode he
    simp only [byte1, body, ackTail] at hf
    cases hp : p.properties with
    | none =>
      rw [hp] at hf
      cases hr : p.reason with
      | Success =>
        left; simp [encode, frame, byte1, body, ackTail, hp, hr, pubRelCode, u16, v2]
      | _ =>
        right
        rw [hr] at hf
        exact ⟨_, propSection [], by simpa [pubRelCode] using hf, rfl⟩
    | some q =>
      rw [hp] at hf
      right; exact ⟨_, _, by simpa using hf, rfl⟩
  · obtain ⟨he, -, rfl⟩ := write_ok_inv h trivial (fun h => h.elim)
    have hf := frameOf_encode he
    simp only [byte1, body, ackTail] at hf
    cases hp : p.properties with
    | none =>
      rw [hp] at hf
      cases hr : p.reason with
      | Success =>
        left; simp [encode, frame, byte1, body, ackTail, hp, hr, pubCompCode, u16, v2]
      | _ =>
        right
        rw [hr] at hf
        exact ⟨_, propSection [], by simpa [pubCompCode] using hf, rfl⟩
    | some q =>
      rw [hp] at hf
      right; exact ⟨_, _, by simpa using hf, rfl⟩
  · obtain ⟨he, -, rfl⟩ := write_ok_inv h trivial (fun h => h.elim)
    exact ⟨_, _, frameOf_encode he, rfl⟩
  · obtain ⟨he, -, rfl⟩ := write_ok_inv h trivial (fun h => h.elim)
    exact ⟨_, _, frameOf_encode he, rfl⟩
  · obtain ⟨he, -, rfl⟩ := write_ok_inv h hs (fun h => h.elim)
    have hf := frameOf_encode he
    simp only [byte1, body, ackTail] at hf
    cases hp : p.properties with
    | none =>
      simp only [Sound, hp] at hs
      left; simp [encode, frame, byte1, body, ackTail, hp, hs, disconnectCode, varint_zero]
    | some q =>
      rw [hp] at hf
      right; exact ⟨_, _, hf, rfl⟩

example : FrameOf 0x40 (u16 7 ++ [0x10] ++ []) [0x40, 3, 0, 7, 0x10] :=
  ⟨[3], rfl, [], 3, rfl, by simp, by simp, by decide, rfl⟩
example : Packet.read .utf8 none [0x40, 3, 0, 7, 0x10] =
    (.ok (.PubAck { pkid := 7, reason := .NoMatchingSubscribers, properties := none }), []) := by
  decide +kernel
example : Packet.read .utf8 none [0x90, 5, 0, 7, 0, 0x00, 0x03] =
    (.err (.InvalidSubscribeReasonCode 0x03), []) := by
  decide +kernel

end Props
