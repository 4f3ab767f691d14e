import Verif.Proofs.ReadPacket
/-
The MQTT 5 encoding of a packet is an accepted frame for the packet's normal form.
-/
set_option linter.unusedSimpArgs false

namespace Mqtt

open Spec

variable {mode : StrMode}

theorem encProps_cons (p : Property) (ps : List Property) :
    encProps (p :: ps) = p.enc ++ encProps ps := rfl

theorem encProps_append (a b : List Property) :
    encProps (a ++ b) = encProps a ++ encProps b := by simp [encProps]

theorem propRep_enc {p : Property} (h : p.Fits) : PropRep p p.enc := by
  refine ⟨h, ?_⟩
  cases p <;> first | rfl | exact ⟨_, varint_rep h, rfl⟩

theorem subIds_append (a b : List Property) : subIds (a ++ b) = subIds a + subIds b := by
  simp [subIds, all]

theorem subIds_cons (p : Property) (ps : List Property) :
    subIds (p :: ps) = p.drift + subIds ps := by
  unfold subIds all
  cases p <;> simp [Property.subscriptionIdentifier?, Property.drift, List.filterMap_cons] <;> omega

/-- The library's walk over an encoded property list. -/
theorem run_enc {whole : List Property} (hfit : ∀ p ∈ whole, p.Fits) (hd : DriftSafe whole) :
    ∀ (ps pre : List Property), whole = pre ++ ps →
      Run (encProps whole).length ((encProps pre).length + subIds pre) ps (encProps ps)
        ((encProps whole).length + subIds whole) := by
  intro ps
  induction ps with
  | nil =>
    rintro pre rfl
    simp only [List.append_nil]
    exact .nil _
  | cons p ps ih =>
    rintro pre rfl
    rw [encProps_cons]
    refine .cons ?_ (propRep_enc (hfit p (by simp))) ?_
    · have := hd pre p ps rfl
      rw [encProps_append, List.length_append]
      omega
    · have e : (encProps (pre ++ [p])).length + subIds (pre ++ [p]) =
          (encProps pre).length + subIds pre + p.enc.length + p.drift := by
        rw [encProps_append, subIds_append, subIds_cons, List.length_append]
        have e0 : subIds [] = 0 := rfl
        have e1 : encProps [p] = p.enc := by simp [encProps]
        rw [e0, e1]; omega
      rw [← e]
      exact ih (pre ++ [p]) (by simp)

theorem enc_pos {p : Property} (h : p.Fits) : 2 ≤ p.enc.length := propRep_pos (propRep_enc h)

theorem propSec_enc {ids : List UInt8} {ps : List Property} (hne : ps ≠ [])
    (hfit : ∀ p ∈ ps, p.Fits) (hok : ∀ p ∈ ps, p.Ok mode ids) (hd : DriftSafe ps)
    (hlen : (encProps ps).length ≤ maxVarint) :
    PropSec mode ids (some ps) (propSection ps) := by
  have hr := run_enc hfit hd ps [] rfl
  refine .present (c := (encProps ps).length + subIds ps) (varint_rep hlen) ?_ hr (by omega) hok
  cases ps with
  | nil => exact absurd rfl hne
  | cons p ps =>
    have := enc_pos (hfit p (by simp))
    rw [encProps_cons, List.length_append]; omega

theorem varint_zero : varint 0 = [0] := by rw [varint]; rfl

theorem propSec_nil {ids : List UInt8} : PropSec mode ids none (propSection []) := by
  have : propSection [] = varint 0 := by simp [propSection, encProps]
  rw [this]
  exact .absent (varint_rep (by omega))

/-- With at most one subscription identifier the miscount does no harm. -/
theorem driftSafe_of_le_one {ps : List Property} (hfit : ∀ p ∈ ps, p.Fits) (h : subIds ps ≤ 1) :
    DriftSafe ps := by
  rintro pre p post rfl
  have := enc_pos (hfit p (by simp))
  rw [subIds_append] at h
  rw [encProps_cons, List.length_append]
  omega

theorem drift_of_id {p : Property} (h : p.id ≠ 0x0B) : p.drift = 0 := by
  cases p <;> first | rfl | exact absurd rfl h

theorem subIds_zero {ps : List Property} (h : ∀ p ∈ ps, p.id ≠ 0x0B) : subIds ps = 0 := by
  induction ps with
  | nil => rfl
  | cons p ps ih =>
    rw [subIds_cons, drift_of_id (h p (by simp)), ih (fun q hq => h q (by simp [hq]))]

theorem subIds_allowed {ids : List UInt8} {ps : List Property} (h : (0x0B : UInt8) ∉ ids)
    (ha : ∀ p ∈ ps, p.id ∈ ids) : subIds ps = 0 :=
  subIds_zero fun p hp he => h (he ▸ ha p hp)

/-- The section of an optional record. -/
theorem optSec {α : Type} {ids : List UInt8} {toList : α → List Property}
    {ofList : List Property → α} (hinv : ∀ a, ofList (toList a) = a)
    (hal : ∀ a, ∀ q ∈ toList a, q.id ∈ ids) (o : Option α)
    (hfit : ∀ q ∈ optList toList o, q.Fits) (ht : ∀ q ∈ optList toList o, q.TextsOk mode)
    (hd : DriftSafe (optList toList o))
    (hlen : (optSection toList o).length ≤ maxVarint) :
    ∃ ps, PropSec mode ids ps (optSection toList o) ∧ normProps toList o = ps.map ofList := by
  cases o with
  | none => exact ⟨none, propSec_nil, rfl⟩
  | some a =>
    simp only [optSection, optList] at *
    by_cases he : toList a = []
    · refine ⟨none, by rw [he]; exact propSec_nil, ?_⟩
      simp [normProps, he]
    · refine ⟨some (toList a), propSec_enc he hfit (fun q hq => ⟨hal a q hq, ht q hq⟩) hd ?_, ?_⟩
      · rw [propSection, List.length_append] at hlen; omega
      · simp [normProps, he, hinv]

theorem len_of_part {a b c : Bytes} {n : Nat} (h : (a ++ b ++ c).length ≤ n) : b.length ≤ n := by
  simp at h; omega

theorem ConnectProperties.optSec (o : Option ConnectProperties)
    (hfit : ∀ q ∈ optList Spec.ConnectProperties.toList o, q.Fits)
    (ht : ∀ q ∈ optList Spec.ConnectProperties.toList o, q.TextsOk mode)
    (hlen : (optSection Spec.ConnectProperties.toList o).length ≤ maxVarint) :
    ∃ ps, PropSec mode Spec.ConnectProperties.allowed ps
        (optSection Spec.ConnectProperties.toList o) ∧
      normProps Spec.ConnectProperties.toList o = ps.map Spec.ConnectProperties.ofList := by
  refine Mqtt.optSec ConnectProperties.ofList_toList ConnectProperties.toList_allowed o hfit ht ?_ hlen
  refine driftSafe_of_le_one hfit ?_
  cases o with
  | none => exact Nat.zero_le _
  | some a =>
    have := subIds_allowed (ids := Spec.ConnectProperties.allowed) (by decide)
      (ConnectProperties.toList_allowed a)
    simp only [optList, this]; omega

theorem LastWillProperties.optSec (o : Option LastWillProperties)
    (hfit : ∀ q ∈ optList Spec.LastWillProperties.toList o, q.Fits)
    (ht : ∀ q ∈ optList Spec.LastWillProperties.toList o, q.TextsOk mode)
    (hlen : (optSection Spec.LastWillProperties.toList o).length ≤ maxVarint) :
    ∃ ps, PropSec mode Spec.LastWillProperties.allowed ps
        (optSection Spec.LastWillProperties.toList o) ∧
      normProps Spec.LastWillProperties.toList o = ps.map Spec.LastWillProperties.ofList := by
  refine Mqtt.optSec LastWillProperties.ofList_toList LastWillProperties.toList_allowed o hfit ht ?_ hlen
  refine driftSafe_of_le_one hfit ?_
  cases o with
  | none => exact Nat.zero_le _
  | some a =>
    have := subIds_allowed (ids := Spec.LastWillProperties.allowed) (by decide)
      (LastWillProperties.toList_allowed a)
    simp only [optList, this]; omega

theorem ConnAckProperties.optSec (o : Option ConnAckProperties)
    (hfit : ∀ q ∈ optList Spec.ConnAckProperties.toList o, q.Fits)
    (ht : ∀ q ∈ optList Spec.ConnAckProperties.toList o, q.TextsOk mode)
    (hlen : (optSection Spec.ConnAckProperties.toList o).length ≤ maxVarint) :
    ∃ ps, PropSec mode Spec.ConnAckProperties.allowed ps
        (optSection Spec.ConnAckProperties.toList o) ∧
      normProps Spec.ConnAckProperties.toList o = ps.map Spec.ConnAckProperties.ofList := by
  refine Mqtt.optSec ConnAckProperties.ofList_toList ConnAckProperties.toList_allowed o hfit ht ?_ hlen
  refine driftSafe_of_le_one hfit ?_
  cases o with
  | none => exact Nat.zero_le _
  | some a =>
    have := subIds_allowed (ids := Spec.ConnAckProperties.allowed) (by decide)
      (ConnAckProperties.toList_allowed a)
    simp only [optList, this]; omega

theorem PubAckProperties.optSec (o : Option PubAckProperties)
    (hfit : ∀ q ∈ optList Spec.PubAckProperties.toList o, q.Fits)
    (ht : ∀ q ∈ optList Spec.PubAckProperties.toList o, q.TextsOk mode)
    (hlen : (optSection Spec.PubAckProperties.toList o).length ≤ maxVarint) :
    ∃ ps, PropSec mode Spec.PubAckProperties.allowed ps
        (optSection Spec.PubAckProperties.toList o) ∧
      normProps Spec.PubAckProperties.toList o = ps.map Spec.PubAckProperties.ofList := by
  refine Mqtt.optSec PubAckProperties.ofList_toList PubAckProperties.toList_allowed o hfit ht ?_ hlen
  refine driftSafe_of_le_one hfit ?_
  cases o with
  | none => exact Nat.zero_le _
  | some a =>
    have := subIds_allowed (ids := Spec.PubAckProperties.allowed) (by decide)
      (PubAckProperties.toList_allowed a)
    simp only [optList, this]; omega

theorem PubRecProperties.optSec (o : Option PubRecProperties)
    (hfit : ∀ q ∈ optList Spec.PubRecProperties.toList o, q.Fits)
    (ht : ∀ q ∈ optList Spec.PubRecProperties.toList o, q.TextsOk mode)
    (hlen : (optSection Spec.PubRecProperties.toList o).length ≤ maxVarint) :
    ∃ ps, PropSec mode Spec.PubRecProperties.allowed ps
        (optSection Spec.PubRecProperties.toList o) ∧
      normProps Spec.PubRecProperties.toList o = ps.map Spec.PubRecProperties.ofList := by
  refine Mqtt.optSec PubRecProperties.ofList_toList PubRecProperties.toList_allowed o hfit ht ?_ hlen
  refine driftSafe_of_le_one hfit ?_
  cases o with
  | none => exact Nat.zero_le _
  | some a =>
    have := subIds_allowed (ids := Spec.PubRecProperties.allowed) (by decide)
      (PubRecProperties.toList_allowed a)
    simp only [optList, this]; omega

theorem PubRelProperties.optSec (o : Option PubRelProperties)
    (hfit : ∀ q ∈ optList Spec.PubRelProperties.toList o, q.Fits)
    (ht : ∀ q ∈ optList Spec.PubRelProperties.toList o, q.TextsOk mode)
    (hlen : (optSection Spec.PubRelProperties.toList o).length ≤ maxVarint) :
    ∃ ps, PropSec mode Spec.PubRelProperties.allowed ps
        (optSection Spec.PubRelProperties.toList o) ∧
      normProps Spec.PubRelProperties.toList o = ps.map Spec.PubRelProperties.ofList := by
  refine Mqtt.optSec PubRelProperties.ofList_toList PubRelProperties.toList_allowed o hfit ht ?_ hlen
  refine driftSafe_of_le_one hfit ?_
  cases o with
  | none => exact Nat.zero_le _
  | some a =>
    have := subIds_allowed (ids := Spec.PubRelProperties.allowed) (by decide)
      (PubRelProperties.toList_allowed a)
    simp only [optList, this]; omega

theorem PubCompProperties.optSec (o : Option PubCompProperties)
    (hfit : ∀ q ∈ optList Spec.PubCompProperties.toList o, q.Fits)
    (ht : ∀ q ∈ optList Spec.PubCompProperties.toList o, q.TextsOk mode)
    (hlen : (optSection Spec.PubCompProperties.toList o).length ≤ maxVarint) :
    ∃ ps, PropSec mode Spec.PubCompProperties.allowed ps
        (optSection Spec.PubCompProperties.toList o) ∧
      normProps Spec.PubCompProperties.toList o = ps.map Spec.PubCompProperties.ofList := by
  refine Mqtt.optSec PubCompProperties.ofList_toList PubCompProperties.toList_allowed o hfit ht ?_ hlen
  refine driftSafe_of_le_one hfit ?_
  cases o with
  | none => exact Nat.zero_le _
  | some a =>
    have := subIds_allowed (ids := Spec.PubCompProperties.allowed) (by decide)
      (PubCompProperties.toList_allowed a)
    simp only [optList, this]; omega

theorem SubAckProperties.optSec (o : Option SubAckProperties)
    (hfit : ∀ q ∈ optList Spec.SubAckProperties.toList o, q.Fits)
    (ht : ∀ q ∈ optList Spec.SubAckProperties.toList o, q.TextsOk mode)
    (hlen : (optSection Spec.SubAckProperties.toList o).length ≤ maxVarint) :
    ∃ ps, PropSec mode Spec.SubAckProperties.allowed ps
        (optSection Spec.SubAckProperties.toList o) ∧
      normProps Spec.SubAckProperties.toList o = ps.map Spec.SubAckProperties.ofList := by
  refine Mqtt.optSec SubAckProperties.ofList_toList SubAckProperties.toList_allowed o hfit ht ?_ hlen
  refine driftSafe_of_le_one hfit ?_
  cases o with
  | none => exact Nat.zero_le _
  | some a =>
    have := subIds_allowed (ids := Spec.SubAckProperties.allowed) (by decide)
      (SubAckProperties.toList_allowed a)
    simp only [optList, this]; omega

theorem UnsubscribeProperties.optSec (o : Option UnsubscribeProperties)
    (hfit : ∀ q ∈ optList Spec.UnsubscribeProperties.toList o, q.Fits)
    (ht : ∀ q ∈ optList Spec.UnsubscribeProperties.toList o, q.TextsOk mode)
    (hlen : (optSection Spec.UnsubscribeProperties.toList o).length ≤ maxVarint) :
    ∃ ps, PropSec mode Spec.UnsubscribeProperties.allowed ps
        (optSection Spec.UnsubscribeProperties.toList o) ∧
      normProps Spec.UnsubscribeProperties.toList o = ps.map Spec.UnsubscribeProperties.ofList := by
  refine Mqtt.optSec UnsubscribeProperties.ofList_toList UnsubscribeProperties.toList_allowed o hfit ht ?_ hlen
  refine driftSafe_of_le_one hfit ?_
  cases o with
  | none => exact Nat.zero_le _
  | some a =>
    have := subIds_allowed (ids := Spec.UnsubscribeProperties.allowed) (by decide)
      (UnsubscribeProperties.toList_allowed a)
    simp only [optList, this]; omega

theorem UnsubAckProperties.optSec (o : Option UnsubAckProperties)
    (hfit : ∀ q ∈ optList Spec.UnsubAckProperties.toList o, q.Fits)
    (ht : ∀ q ∈ optList Spec.UnsubAckProperties.toList o, q.TextsOk mode)
    (hlen : (optSection Spec.UnsubAckProperties.toList o).length ≤ maxVarint) :
    ∃ ps, PropSec mode Spec.UnsubAckProperties.allowed ps
        (optSection Spec.UnsubAckProperties.toList o) ∧
      normProps Spec.UnsubAckProperties.toList o = ps.map Spec.UnsubAckProperties.ofList := by
  refine Mqtt.optSec UnsubAckProperties.ofList_toList UnsubAckProperties.toList_allowed o hfit ht ?_ hlen
  refine driftSafe_of_le_one hfit ?_
  cases o with
  | none => exact Nat.zero_le _
  | some a =>
    have := subIds_allowed (ids := Spec.UnsubAckProperties.allowed) (by decide)
      (UnsubAckProperties.toList_allowed a)
    simp only [optList, this]; omega

theorem DisconnectProperties.optSec (o : Option DisconnectProperties)
    (hfit : ∀ q ∈ optList Spec.DisconnectProperties.toList o, q.Fits)
    (ht : ∀ q ∈ optList Spec.DisconnectProperties.toList o, q.TextsOk mode)
    (hlen : (optSection Spec.DisconnectProperties.toList o).length ≤ maxVarint) :
    ∃ ps, PropSec mode Spec.DisconnectProperties.allowed ps
        (optSection Spec.DisconnectProperties.toList o) ∧
      normProps Spec.DisconnectProperties.toList o = ps.map Spec.DisconnectProperties.ofList := by
  refine Mqtt.optSec DisconnectProperties.ofList_toList DisconnectProperties.toList_allowed o hfit ht ?_ hlen
  refine driftSafe_of_le_one hfit ?_
  cases o with
  | none => exact Nat.zero_le _
  | some a =>
    have := subIds_allowed (ids := Spec.DisconnectProperties.allowed) (by decide)
      (DisconnectProperties.toList_allowed a)
    simp only [optList, this]; omega

theorem SubscribeProperties.subIds_le (a : SubscribeProperties) :
    subIds (Spec.SubscribeProperties.toList a) ≤ 1 := by
  unfold subIds Spec.SubscribeProperties.toList users
  simp only [all_append, all_one, all_map, Property.subscriptionIdentifier?,
    filterMap_const_none, List.append_nil, bind_some', bind_const_none]
  cases a.id <;> simp

theorem SubscribeProperties.optSec (o : Option SubscribeProperties)
    (hfit : ∀ q ∈ optList Spec.SubscribeProperties.toList o, q.Fits)
    (ht : ∀ q ∈ optList Spec.SubscribeProperties.toList o, q.TextsOk mode)
    (hlen : (optSection Spec.SubscribeProperties.toList o).length ≤ maxVarint) :
    ∃ ps, PropSec mode Spec.SubscribeProperties.allowed ps
        (optSection Spec.SubscribeProperties.toList o) ∧
      normProps Spec.SubscribeProperties.toList o = ps.map Spec.SubscribeProperties.ofList := by
  refine Mqtt.optSec SubscribeProperties.ofList_toList SubscribeProperties.toList_allowed o hfit
    ht ?_ hlen
  refine driftSafe_of_le_one hfit ?_
  cases o with
  | none => exact Nat.zero_le _
  | some a => exact SubscribeProperties.subIds_le a

/-! ### Bodies -/

theorem textField_of {p : Packet} {s : Bytes} (he : Encodable p) (hs : StringsOk mode p)
    (h : s ∈ texts p) : TextField mode s :=
  ⟨he.1 s (by simp [fields, h]), hs.1 s h⟩

theorem ackTail_rep {α : Type} {ids : List UInt8} {toList : α → List Property}
    {ofList : List Property → α} (code : UInt8) (o : Option α)
    (h : ∃ ps, PropSec mode ids ps (optSection toList o) ∧ normProps toList o = ps.map ofList) :
    AckTailRep mode ids ofList code (normProps toList o) (ackTail code toList o) := by
  obtain ⟨ps, hs, hn⟩ := h
  cases o with
  | none =>
    simp only [ackTail]
    by_cases h0 : code = 0
    · rw [if_pos h0]; exact .inl ⟨rfl, h0, rfl⟩
    · rw [if_neg h0]
      exact .inr (.inr ⟨ps, propSection [], [], by simp, hs, hn⟩)
  | some a => exact .inr (.inr ⟨ps, propSection (toList a), [], by simp [ackTail], hs, hn⟩)

/-- The tail is at least as long as the section, or the section is that of no record. -/
theorem ackTail_len {α : Type} {toList : α → List Property} (code : UInt8) (o : Option α) :
    (optSection toList o).length ≤ (ackTail code toList o).length + 1 := by
  cases o with
  | none =>
    simp [optSection, propSection, encProps, varint_zero]
  | some a => simp [optSection, ackTail]; omega

theorem seqRep_flatMap {α : Type} {R : α → Bytes → Prop} {f : α → Bytes} (l : List α)
    (h : ∀ x ∈ l, R x (f x)) : SeqRep R l (l.flatMap f) := by
  induction l with
  | nil => exact .nil
  | cons x l ih =>
    exact .cons (h x (by simp)) (ih fun y hy => h y (by simp [hy]))

theorem bit_lt (b : Bool) : bit b < 2 := by cases b <;> decide

theorem ofNat_small {n : Nat} (h : n < 256) : (UInt8.ofNat n).toNat = n := by
  simp [UInt8.toNat_ofNat]; omega

theorem qosNum_lt (q : QoS) : qosNum q < 3 := by cases q <;> decide

theorem propSection_nil_len : (propSection []).length = 1 := by
  simp [propSection, encProps, varint_zero]

theorem PubAck.bodyRep (b1 : Nat) (p : PubAck) (he : Encodable (.PubAck p)) (hs : StringsOk mode (.PubAck p)) :
    BodyRep mode b1 (body (.PubAck p)) (norm (.PubAck p)) := by
  refine ⟨_, rfl, ackTail_rep _ _ (PubAckProperties.optSec _ he.2.1 hs.2 ?_)⟩
  have h1 := he.2.2.1
  have h2 := ackTail_len (toList := Spec.PubAckProperties.toList) (pubAckCode p.reason) p.properties
  simp only [body, List.length_append, u16_length] at h1
  omega

theorem PubRec.bodyRep (b1 : Nat) (p : PubRec) (he : Encodable (.PubRec p)) (hs : StringsOk mode (.PubRec p)) :
    BodyRep mode b1 (body (.PubRec p)) (norm (.PubRec p)) := by
  refine ⟨_, rfl, ackTail_rep _ _ (PubRecProperties.optSec _ he.2.1 hs.2 ?_)⟩
  have h1 := he.2.2.1
  have h2 := ackTail_len (toList := Spec.PubRecProperties.toList) (pubRecCode p.reason) p.properties
  simp only [body, List.length_append, u16_length] at h1
  omega

theorem PubRel.bodyRep (b1 : Nat) (p : PubRel) (he : Encodable (.PubRel p)) (hs : StringsOk mode (.PubRel p)) :
    BodyRep mode b1 (body (.PubRel p)) (norm (.PubRel p)) := by
  refine ⟨_, rfl, ackTail_rep _ _ (PubRelProperties.optSec _ he.2.1 hs.2 ?_)⟩
  have h1 := he.2.2.1
  have h2 := ackTail_len (toList := Spec.PubRelProperties.toList) (pubRelCode p.reason) p.properties
  simp only [body, List.length_append, u16_length] at h1
  omega

theorem PubComp.bodyRep (b1 : Nat) (p : PubComp) (he : Encodable (.PubComp p)) (hs : StringsOk mode (.PubComp p)) :
    BodyRep mode b1 (body (.PubComp p)) (norm (.PubComp p)) := by
  refine ⟨_, rfl, ackTail_rep _ _ (PubCompProperties.optSec _ he.2.1 hs.2 ?_)⟩
  have h1 := he.2.2.1
  have h2 := ackTail_len (toList := Spec.PubCompProperties.toList) (pubCompCode p.reason) p.properties
  simp only [body, List.length_append, u16_length] at h1
  omega

theorem Disconnect.bodyRep (p : Disconnect) (he : Encodable (.Disconnect p))
    (hs : StringsOk mode (.Disconnect p)) :
    BodyRep mode 0xE0 (body (.Disconnect p)) (norm (.Disconnect p)) := by
  refine ⟨by decide, ?_⟩
  have h1 := he.2.2.1
  have hsec := DisconnectProperties.optSec (mode := mode) p.properties he.2.1 hs.2 (by
    cases ho : p.properties with
    | none => simp [optSection, propSection_nil_len, maxVarint]
    | some a =>
      rw [show body (.Disconnect p) = disconnectCode p.reason_code ::
        propSection (Spec.DisconnectProperties.toList a) by simp [body, ackTail, ho]] at h1
      simp only [optSection, List.length_cons] at h1 ⊢
      omega)
  obtain ⟨ps, hp, hn⟩ := hsec
  cases ho : p.properties with
  | none =>
    rw [ho] at hp hn
    by_cases h0 : disconnectCode p.reason_code = 0
    · left
      refine ⟨by simp [body, ackTail, ho, h0], ?_, by simp [ho, normProps]⟩
      show p.reason_code = _
      revert h0
      cases p.reason_code <;> simp [disconnectCode]
    · right
      refine ⟨ps, propSection [], [], by simp [body, ackTail, ho, h0], hp, ?_⟩
      simp only [ho]; exact hn
  | some a =>
    rw [ho] at hp hn
    right
    refine ⟨ps, propSection (Spec.DisconnectProperties.toList a), [],
      by simp [body, ackTail, ho], hp, ?_⟩
    simp only [ho]; exact hn

theorem ConnAck.bodyRep (b1 : Nat) (p : ConnAck) (he : Encodable (.ConnAck p))
    (hs : StringsOk mode (.ConnAck p)) :
    BodyRep mode b1 (body (.ConnAck p)) (norm (.ConnAck p)) := by
  have h1 := he.2.2.1
  obtain ⟨ps, hp, hn⟩ := ConnAckProperties.optSec (mode := mode) p.properties he.2.1 hs.2 (by
    simp only [body, List.length_append] at h1; omega)
  obtain ⟨c, hc⟩ := Option.ne_none_iff_exists'.1 he.2.2.2
  refine ⟨UInt8.ofNat (bit p.session_present), c, ps, _, [], by simp [body, hc], ?_, hc, hp, hn⟩
  have := bit_lt p.session_present
  rw [ofNat_small (by omega)]
  show bit p.session_present = _
  omega

theorem Publish.bodyRep (p : Publish) (he : Encodable (.Publish p))
    (hs : StringsOk mode (.Publish p)) (hr : Readable (.Publish p)) :
    BodyRep mode (Spec.byte1 (.Publish p)).toNat (body (.Publish p)) (norm (.Publish p)) := by
  have h1 := he.2.2.1
  obtain ⟨ps, hp, hn⟩ := Mqtt.optSec (mode := mode) PublishProperties.ofList_toList
    PublishProperties.toList_allowed p.properties he.2.1 hs.2 hr (by
    simp only [body, List.length_append] at h1; omega)
  have hd := bit_lt p.dup; have hrt := bit_lt p.retain; have hq := qosNum_lt p.qos
  have hb : (Spec.byte1 (.Publish p)).toNat =
      0x30 + 8 * bit p.dup + 2 * qosNum p.qos + bit p.retain := by
    rw [Spec.byte1, ofNat_small (by omega)]
  refine ⟨?_, ?_, ?_, ?_, textField_of he hs (by simp [texts, norm]), ps, _, ?_, hp, hn⟩
  · rw [hb]; show bit p.dup = _; omega
  · rw [hb]; show qosNum p.qos = _; omega
  · rw [hb]; show bit p.retain = _; omega
  · show (if p.qos = .AtMostOnce then 0 else p.pkid) = 0 ↔ p.qos = .AtMostOnce
    by_cases h0 : p.qos = .AtMostOnce
    · simp [h0]
    · simp [h0, he.2.2.2 h0]
  · simp only [norm, body]
    by_cases h0 : p.qos = .AtMostOnce <;> simp [h0]

theorem Subscribe.bodyRep (b1 : Nat) (p : Subscribe) (he : Encodable (.Subscribe p))
    (hs : StringsOk mode (.Subscribe p)) (hr : Readable (.Subscribe p)) :
    BodyRep mode b1 (body (.Subscribe p)) (norm (.Subscribe p)) := by
  have h1 := he.2.2.1
  obtain ⟨ps, hp, hn⟩ := SubscribeProperties.optSec (mode := mode) p.properties he.2.1 hs.2 (by
    simp only [body, List.length_append] at h1; omega)
  refine ⟨hr, ps, _, _, rfl, hp, hn, seqRep_flatMap _ fun f hf => ?_⟩
  refine ⟨textField_of he hs (by simp only [texts, List.mem_map]; exact ⟨f, hf, rfl⟩),
    UInt8.ofNat (filterOptions f), ?_, rfl⟩
  have := filterOptions_lt f
  rw [ofNat_small (by omega)]
  omega

theorem Unsubscribe.bodyRep (b1 : Nat) (p : Unsubscribe) (he : Encodable (.Unsubscribe p))
    (hs : StringsOk mode (.Unsubscribe p)) :
    BodyRep mode b1 (body (.Unsubscribe p)) (norm (.Unsubscribe p)) := by
  have h1 := he.2.2.1
  obtain ⟨ps, hp, hn⟩ := UnsubscribeProperties.optSec (mode := mode) p.properties he.2.1 hs.2 (by
    simp only [body, List.length_append] at h1; omega)
  exact ⟨ps, _, _, rfl, hp, hn, seqRep_flatMap _ fun f hf => ⟨textField_of he hs hf, rfl⟩⟩

theorem SubAck.bodyRep (b1 : Nat) (p : SubAck) (he : Encodable (.SubAck p))
    (hs : StringsOk mode (.SubAck p)) (hr : Readable (.SubAck p)) :
    BodyRep mode b1 (body (.SubAck p)) (norm (.SubAck p)) := by
  have h1 := he.2.2.1
  obtain ⟨ps, hp, hn⟩ := SubAckProperties.optSec (mode := mode) p.properties he.2.1 hs.2 (by
    simp only [body, List.length_append] at h1; omega)
  exact ⟨hr, ps, _, rfl, hp, hn⟩

theorem UnsubAck.bodyRep (b1 : Nat) (p : UnsubAck) (he : Encodable (.UnsubAck p))
    (hs : StringsOk mode (.UnsubAck p)) (hr : Readable (.UnsubAck p)) :
    BodyRep mode b1 (body (.UnsubAck p)) (norm (.UnsubAck p)) := by
  have h1 := he.2.2.1
  obtain ⟨ps, hp, hn⟩ := UnsubAckProperties.optSec (mode := mode) p.properties he.2.1 hs.2 (by
    simp only [body, List.length_append] at h1; omega)
  exact ⟨hr, ps, _, rfl, hp, hn⟩

/-! ### CONNECT -/

theorem flagField_enc {s : Bytes} {n : Nat} (hn : n = bit (!s.isEmpty)) (ht : TextField mode s) :
    FlagField mode n s (optStr s) := by
  cases s with
  | nil => exact .inr ⟨hn, rfl, rfl⟩
  | cons x s => exact .inl ⟨hn, ht, rfl⟩

theorem loginRep_enc {flags : Nat} {login : Option Login} {wl : Bytes}
    (hw : wl = match login with | some l => loginBytes l | none => [])
    (h7 : flags / 128 % 2 = login.elim 0 fun l => bit (!l.username.isEmpty))
    (h6 : flags / 64 % 2 = login.elim 0 fun l => bit (!l.password.isEmpty))
    (ht : ∀ l, login = some l → TextField mode l.username ∧ TextField mode l.password) :
    LoginRep mode flags (login.filter fun l => !(l.username.isEmpty && l.password.isEmpty))
      wl := by
  subst hw
  cases login with
  | none =>
    exact ⟨[], [], [], [], .inr ⟨h7, rfl, rfl⟩, .inr ⟨h6, rfl, rfl⟩, rfl, rfl⟩
  | some l =>
    obtain ⟨h1, h2⟩ := ht l rfl
    refine ⟨l.username, l.password, _, _, flagField_enc h7 h1, flagField_enc h6 h2, rfl, ?_⟩
    obtain ⟨u, p⟩ := l
    cases u <;> cases p <;> simp [Option.filter]

theorem Connect.bodyRep (b1 : Nat) (c : Connect) (will : Option LastWill) (login : Option Login)
    (he : Encodable (.Connect c will login)) (hs : StringsOk mode (.Connect c will login)) :
    BodyRep mode b1 (body (.Connect c will login)) (norm (.Connect c will login)) := by
  have h1 := he.2.2.1
  obtain ⟨ps, hp, hn⟩ := ConnectProperties.optSec (mode := mode) c.properties
    (fun q hq => he.2.1 q (by simp [props, hq])) (fun q hq => hs.2 q (by simp [props, hq])) (by
    simp only [body, List.length_append] at h1; omega)
  have hcs := bit_lt c.clean_start
  have hfl : connectFlags c will login < 256 ∧
      connectFlags c will login / 2 % 2 = bit c.clean_start ∧
      (match will with
        | none => connectFlags c will login / 4 % 16 = 0
        | some w => connectFlags c will login / 4 % 2 = 1 ∧
          qosNum w.qos = connectFlags c will login / 8 % 4 ∧
          bit w.retain = connectFlags c will login / 32 % 2) ∧
      (connectFlags c will login / 128 % 2 =
        login.elim 0 fun l => bit (!l.username.isEmpty)) ∧
      (connectFlags c will login / 64 % 2 =
        login.elim 0 fun l => bit (!l.password.isEmpty)) := by
    unfold connectFlags
    cases will with
    | none =>
      cases login with
      | none => simp only [Option.elim]; omega
      | some l =>
        have := bit_lt (!l.username.isEmpty); have := bit_lt (!l.password.isEmpty)
        simp only [Option.elim]; omega
    | some w =>
      have := qosNum_lt w.qos; have := bit_lt w.retain
      cases login with
      | none => simp only [Option.elim]; omega
      | some l =>
        have := bit_lt (!l.username.isEmpty); have := bit_lt (!l.password.isEmpty)
        simp only [Option.elim]; omega
  obtain ⟨f1, f2, f3, f4, f5⟩ := hfl
  have hft := ofNat_small f1
  refine ⟨UInt8.ofNat (connectFlags c will login), ps, _, _, _, [],
    (List.append_nil _).symm, ?_, hp, hn, textField_of he hs (by simp [texts]), ?_, ?_⟩
  · rw [hft, f2]
  · rw [hft]
    cases will with
    | none => exact ⟨f3, rfl⟩
    | some w =>
      obtain ⟨ps', hp', hn'⟩ := LastWillProperties.optSec (mode := mode) w.properties
        (fun q hq => he.2.1 q (by simp [props, hq])) (fun q hq => hs.2 q (by simp [props, hq]))
        (by simp only [body, willBytes, List.length_append] at h1; omega)
      exact ⟨f3.1, f3.2.1, f3.2.2, he.1 _ (by simp [fields]), he.1 _ (by simp [fields]),
        ps', _, hp', hn', rfl⟩
  · rw [hft]
    refine loginRep_enc rfl f4 f5 ?_
    rintro l rfl
    exact ⟨textField_of he hs (by simp [texts]), textField_of he hs (by simp [texts])⟩

/-! ### All packets -/

theorem norm_typeNum (p : Packet) : typeNum (norm p) = typeNum p := by cases p <;> rfl

theorem publish_byte1_type (p : Publish) : (Spec.byte1 (.Publish p)).toNat / 16 = 3 := by
  have hd := bit_lt p.dup; have hrt := bit_lt p.retain; have hq := qosNum_lt p.qos
  rw [Spec.byte1, ofNat_small (by omega)]
  omega

theorem byte1_type (p : Packet) : (Spec.byte1 p).toNat / 16 = typeNum p := by
  cases p
  case Publish p => exact publish_byte1_type p
  all_goals simp [Spec.byte1, typeNum]

/-- The encoding of a packet is an accepted frame standing for its normal form. -/
theorem encode_frameRep {p : Packet} (he : Encodable p) (hs : StringsOk mode p)
    (hr : Readable p) : FrameRep mode (encode p) (norm p) := by
  refine ⟨Spec.byte1 p, varint (body p).length, body p, rfl, varint_rep he.2.2.1,
    by rw [byte1_type, norm_typeNum], ?_⟩
  cases p
  case Connect => exact Connect.bodyRep _ _ _ _ he hs
  case ConnAck => exact ConnAck.bodyRep _ _ he hs
  case Publish => exact Publish.bodyRep _ he hs hr
  case PubAck => exact PubAck.bodyRep _ _ he hs
  case PubRec => exact PubRec.bodyRep _ _ he hs
  case PubRel => exact PubRel.bodyRep _ _ he hs
  case PubComp => exact PubComp.bodyRep _ _ he hs
  case Subscribe => exact Subscribe.bodyRep _ _ he hs hr
  case SubAck => exact SubAck.bodyRep _ _ he hs hr
  case Unsubscribe => exact Unsubscribe.bodyRep _ _ he hs
  case UnsubAck => exact UnsubAck.bodyRep _ _ he hs hr
  case PingReq => trivial
  case PingResp => trivial
  case Disconnect => exact Disconnect.bodyRep _ he hs

end Mqtt
