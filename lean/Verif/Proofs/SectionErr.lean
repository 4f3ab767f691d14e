import Verif.Proofs.Typed
/-
An error inside a property section is the result of `Packet::read`.
-/
set_option linter.unusedSimpArgs false

namespace Mqtt

open Spec

variable {mode : StrMode} {α β : Type}

/-- The reader of a section stops at an identifier that is not allowed. -/
theorem gRead_foreign {ids : List UInt8} {v ws rest : Bytes} {plen : Nat} {ps : List Property}
    {x : UInt8} (hv : VarintRep v plen) (hs : SeqRep PropRep ps ws)
    (hok : ∀ p ∈ ps, p.Ok mode ids) (hl : ws.length + subIds ps < plen) (hx : x ∉ ids) :
    Fails (gRead mode ids) (v ++ ws ++ x :: rest) (.InvalidPropertyType x) := by
  have hrun : Run plen 0 ps ws (0 + ws.length + subIds ps) := run_of_seq hs 0 (by
    intro pre p post he w1 w2 hw h1 h2
    have e1 : subIds pre ≤ subIds ps := by rw [he, subIds_append]; omega
    have e2 : w1.length ≤ ws.length := by rw [hw, List.length_append]; omega
    omega)
  have hlen := run_length hrun
  unfold gRead
  rw [List.append_assoc]
  refine .step (show lengthM (v ++ (ws ++ x :: rest)) = (.ok (v.length, plen), v ++ (ws ++ x :: rest)) from by
    simp only [lengthM, length_rep hv]) ?_
  refine .step (advance_append v _) ?_
  rw [if_neg (by simp only; omega)]
  refine .step (show getBuf _ = (.ok _, _) from rfl) (.here ?_)
  have := gLoop_prefix hrun hok ((ws ++ x :: rest).length + 1 - ps.length) [] (x :: rest)
  rw [show ps.length + ((ws ++ x :: rest).length + 1 - ps.length) = (ws ++ x :: rest).length + 1
    by simp; omega] at this
  unfold Fails
  simp only [this]
  rw [show (ws ++ x :: rest).length + 1 - ps.length = ((ws ++ x :: rest).length - ps.length) + 1
    by simp; omega, gLoop, if_pos (by omega)]
  refine Fails.u8 ?_
  rcases property_spec x with ⟨ty, h1, h2⟩ | h1
  · rw [h1, liftOut_ok, pure_bind, if_neg (by rw [h2]; exact hx)]
    exact .throwE
  · rw [h1, liftOut_err]
    exact .here .throwE

/-- An error inside any of the 13 property sections. -/
theorem section_err {b1 : UInt8} {ids : List UInt8} {pre rest f : Bytes} {max : Option Nat}
    {e : Err} (hp : SectionAt mode b1 ids pre) (hf : FrameOf b1 (pre ++ rest) f)
    (hm : Admits max (pre ++ rest).length) (hn : rest ≠ [])
    (h : Fails (gRead mode ids) rest e) (r : Bytes) :
    Packet.read mode max (f ++ r) = (.err e, r) := by
  cases hp with
  | connect flags ka ht =>
    refine frame_err (ty := .Connect) (m := Connect.read mode)
      (c := fun x => Packet.Connect x.1 x.2.1 x.2.2)
      (fun _ _ => rfl) hf hm ht (.inl (by simp)) ?_ r
    intro fh hdr hh hr _
    unfold Connect.read
    refine .hdr hh ?_
    simp only [List.append_assoc]
    refine .str protocolName_text (.u8 ?_)
    rw [if_neg (by decide), if_neg (by decide)]
    exact .u8 (.u16 (.props (ConnectProperties.read_eq mode) h))
  | @will flags ka ps s cid ht hw hs hok hc =>
    have hsec := propSec_of_section' (ids := Spec.ConnectProperties.allowed) (mode := mode)
      (by decide) hs hok
    refine frame_err (ty := .Connect) (m := Connect.read mode)
      (c := fun x => Packet.Connect x.1 x.2.1 x.2.2)
      (fun _ _ => rfl) hf hm ht (.inl (by simp)) ?_ r
    intro fh hdr hh hr _
    unfold Connect.read
    refine .hdr hh ?_
    simp only [List.append_assoc]
    refine .str protocolName_text (.u8 ?_)
    rw [if_neg (by decide), if_neg (by decide)]
    refine .u8 (.u16 (.step ((props_ok (ConnectProperties.read_eq mode)).2
      ⟨_, s, rfl, hsec, rfl⟩) (.str hc (.here ?_))))
    obtain ⟨-, e2, -⟩ := bits_connect flags
    unfold LastWill.read
    rw [if_neg (fun h0 => by have := e2.1 h0; omega)]
    exact .props (LastWillProperties.read_eq mode) h
  | connAck flags code ht =>
    refine frame_err (ty := .ConnAck) (m := ConnAck.read mode) (c := Packet.ConnAck)
      (fun _ _ => rfl) hf hm ht (.inl (by simp)) ?_ r
    intro fh hdr hh hr _
    unfold ConnAck.read
    refine .hdr hh (.u8 (.u8 (.props (ConnAckProperties.read_eq mode) h)))
  | @publish0 topic ht hq hc =>
    refine frame_err (ty := .Publish) (m := Publish.read mode) (c := Packet.Publish)
      (fun _ _ => rfl) hf hm ht (.inl (by simp [str, u16])) ?_ r
    intro fh hdr hh hr h1
    rw [Publish.read_eq, h1]
    obtain ⟨e1, -, -⟩ := bits_publish b1
    have : qos ((b1 &&& 0b0110) >>> 1) = some .AtMostOnce := (qos_spec _ _).2 (by rw [e1, hq]; rfl)
    rw [qosOrErr, this]
    refine .step rfl (.hdr hh ?_)
    unfold publishRest
    refine .str hc ?_
    rw [if_pos rfl]
    refine .step rfl ?_
    rw [if_neg (by simp)]
    exact .props (PublishProperties.read_eq mode) h
  | @publish topic pkid ht hq hc hk =>
    refine frame_err (ty := .Publish) (m := Publish.read mode) (c := Packet.Publish)
      (fun _ _ => rfl) hf hm ht (.inl (by simp [str, u16])) ?_ r
    intro fh hdr hh hr h1
    rw [Publish.read_eq, h1]
    obtain ⟨e1, -, -⟩ := bits_publish b1
    obtain ⟨q, hq0, this⟩ : ∃ q, q ≠ .AtMostOnce ∧ qos ((b1 &&& 0b0110) >>> 1) = some q := by
      rcases hq with hq | hq
      · exact ⟨.AtLeastOnce, by simp, (qos_spec _ _).2 (by rw [e1, hq]; rfl)⟩
      · exact ⟨.ExactlyOnce, by simp, (qos_spec _ _).2 (by rw [e1, hq]; rfl)⟩
    rw [qosOrErr, this]
    refine .step rfl (.hdr hh ?_)
    unfold publishRest
    rw [List.append_assoc]
    refine .str hc ?_
    rw [if_neg hq0]
    refine .u16 ?_
    rw [if_neg (fun hc => hk hc.2)]
    exact .props (PublishProperties.read_eq mode) h
  | pubAck pkid code ht =>
    refine frame_err (ty := .PubAck) (m := PubAck.read mode) (c := Packet.PubAck)
      (fun _ _ => rfl) hf hm ht (.inl (by simp [u16])) ?_ r
    intro fh hdr hh hr _
    have hl := List.length_pos_iff.2 hn
    unfold PubAck.read
    refine .hdr hh ?_
    rw [hr, List.append_assoc]
    refine .u16 ?_
    rw [if_neg (by simp [u16])]
    refine .u8 ?_
    rw [if_neg (by simp [u16]; omega)]
    exact .props (PubAckProperties.read_eq mode) h
  | pubRec pkid code ht =>
    refine frame_err (ty := .PubRec) (m := PubRec.read mode) (c := Packet.PubRec)
      (fun _ _ => rfl) hf hm ht (.inl (by simp [u16])) ?_ r
    intro fh hdr hh hr _
    have hl := List.length_pos_iff.2 hn
    unfold PubRec.read
    refine .hdr hh ?_
    rw [hr, List.append_assoc]
    refine .u16 ?_
    rw [if_neg (by simp [u16])]
    refine .u8 ?_
    rw [if_neg (by simp [u16]; omega)]
    exact .props (PubRecProperties.read_eq mode) h
  | pubRel pkid code ht =>
    refine frame_err (ty := .PubRel) (m := PubRel.read mode) (c := Packet.PubRel)
      (fun _ _ => rfl) hf hm ht (.inl (by simp [u16])) ?_ r
    intro fh hdr hh hr _
    have hl := List.length_pos_iff.2 hn
    unfold PubRel.read
    refine .hdr hh ?_
    rw [hr, List.append_assoc]
    refine .u16 ?_
    rw [if_neg (by simp [u16])]
    refine .u8 ?_
    rw [if_neg (by simp [u16]; omega)]
    exact .props (PubRelProperties.read_eq mode) h
  | pubComp pkid code ht =>
    refine frame_err (ty := .PubComp) (m := PubComp.read mode) (c := Packet.PubComp)
      (fun _ _ => rfl) hf hm ht (.inl (by simp [u16])) ?_ r
    intro fh hdr hh hr _
    have hl := List.length_pos_iff.2 hn
    unfold PubComp.read
    refine .hdr hh ?_
    rw [hr, List.append_assoc]
    refine .u16 ?_
    rw [if_neg (by simp [u16])]
    refine .u8 ?_
    rw [if_neg (by simp [u16]; omega)]
    exact .props (PubCompProperties.read_eq mode) h
  | subscribe pkid ht =>
    refine frame_err (ty := .Subscribe) (m := Subscribe.read mode) (c := Packet.Subscribe)
      (fun _ _ => rfl) hf hm ht (.inl (by simp [u16])) ?_ r
    intro fh hdr hh hr _
    unfold Subscribe.read
    refine .hdr hh (.u16 ?_)
    exact .props (SubscribeProperties.read_eq mode) h
  | subAck pkid ht =>
    refine frame_err (ty := .SubAck) (m := SubAck.read mode) (c := Packet.SubAck)
      (fun _ _ => rfl) hf hm ht (.inl (by simp [u16])) ?_ r
    intro fh hdr hh hr _
    unfold SubAck.read
    refine .hdr hh (.u16 ?_)
    exact .props (SubAckProperties.read_eq mode) h
  | unsubscribe pkid ht =>
    refine frame_err (ty := .Unsubscribe) (m := Unsubscribe.read mode) (c := Packet.Unsubscribe)
      (fun _ _ => rfl) hf hm ht (.inl (by simp [u16])) ?_ r
    intro fh hdr hh hr _
    unfold Unsubscribe.read
    refine .hdr hh (.u16 ?_)
    exact .props (UnsubscribeProperties.read_eq mode) h
  | unsubAck pkid ht =>
    refine frame_err (ty := .UnsubAck) (m := UnsubAck.read mode) (c := Packet.UnsubAck)
      (fun _ _ => rfl) hf hm ht (.inl (by simp [u16])) ?_ r
    intro fh hdr hh hr _
    unfold UnsubAck.read
    refine .hdr hh (.u16 ?_)
    exact .props (UnsubAckProperties.read_eq mode) h
  | disconnect rc ht =>
    subst ht
    refine frame_err (ty := .Disconnect) (m := Disconnect.read mode) (c := Packet.Disconnect)
      (fun _ _ => rfl) hf hm rfl (.inr rfl) ?_ r
    intro fh hdr hh hr h1
    unfold Disconnect.read
    rw [h1, hr]
    refine .hdr hh ?_
    rw [if_neg (by decide), if_neg (by decide), if_neg (by simp)]
    refine .u8 ?_
    rw [DisconnectReasonCode.ofU8_code]
    exact .step rfl (.props (DisconnectProperties.read_eq mode) h)

end Mqtt
