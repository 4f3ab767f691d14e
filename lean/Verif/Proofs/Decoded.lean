import Verif.Proofs.Pieces
import Verif.Proofs.Typed
import Verif.Spec.Decoded
/-
Facts about every decoded packet.
-/
set_option linter.unusedSimpArgs false

namespace Mqtt

open Spec

variable {mode : StrMode}

/-- Weight of a property in `dataSize`. -/
def dataW (q : Property) : Nat := total q.strings + 1

theorem dataW_le (q : Property) : dataW q ≤ q.enc.length := by
  cases q <;> simp [dataW, total, Property.strings, Property.texts, Property.enc, Property.value] <;>
    omega

theorem wsum_enc (l : List Property) : wsum (fun q => q.enc.length) l = (encProps l).length := by
  induction l with
  | nil => rfl
  | cons p l ih => rw [wsum_cons, ih, encProps_cons, List.length_append]

theorem wsum_mono {w w' : Property → Nat} (h : ∀ q, w q ≤ w' q) (l : List Property) :
    wsum w l ≤ wsum w' l := by
  induction l with
  | nil => simp
  | cons p l ih => have := h p; simp only [wsum_cons]; omega

theorem run_facts {plen c c' : Nat} {ps : List Property} {ws : Bytes} (h : Run plen c ps ws c') :
    (∀ p ∈ ps, p.Fits) ∧ (encProps ps).length ≤ ws.length := by
  induction h with
  | nil => simp [encProps]
  | @cons c c' p w ps ws hc hp _ ih =>
    have := propRep_length hp
    refine ⟨?_, by rw [encProps_cons, List.length_append, List.length_append]; omega⟩
    intro q hq
    rcases List.mem_cons.1 hq with rfl | hq
    · exact hp.1
    · exact ih.1 q hq

theorem propRep_max {p : Property} {w : Bytes} (h : PropRep p w) : w.length ≤ 131075 := by
  obtain ⟨hf, h⟩ := h
  cases p
  case subscriptionIdentifier n =>
    obtain ⟨v, hv, rfl⟩ := h
    have := hv.length_le
    simp only [List.length_cons]; omega
  all_goals
    simp only at h
    simp only [Property.Fits] at hf
    subst h
    simp only [Property.enc, Property.value, List.length_cons, List.length_append, str_length,
      u16, u32, List.length_nil]
    omega

/-- The last property of a section may run over its end, but not by more than a property's
length. -/
theorem run_overrun {plen c c' : Nat} {ps : List Property} {ws : Bytes} (h : Run plen c ps ws c') :
    ws = [] ∨ c + ws.length ≤ plen + 131074 := by
  induction h with
  | nil => exact .inl rfl
  | @cons c c' p w ps ws hc hp _ ih =>
    have := propRep_max hp
    right
    rw [List.length_append]
    rcases ih with rfl | ih
    · rw [List.length_nil]; omega
    · omega

/-- What a section on the wire says about the record it is decoded to. -/
structure SecFacts {α : Type} (mode : StrMode) (toList : α → List Property) (o : Option α)
    (s : Bytes) : Prop where
  texts : ∀ q ∈ optList toList o, q.TextsOk mode
  fits : ∀ q ∈ optList toList o, q.Fits
  nonEmpty : NonEmptyRecord toList o
  len : (optSection toList o).length ≤ s.length + 2
  data : wsum dataW (optList toList o) + 1 ≤ s.length

theorem secFacts {α : Type} {ids : List UInt8} {toList : α → List Property}
    {ofList : List Property → α} (hw : ∀ l, Within (toList (ofList l)) l)
    (hne : ∀ {l : List Property} {p : Property}, p ∈ l → p.id ∈ ids → toList (ofList l) ≠ [])
    {ps : Option (List Property)} {s : Bytes} (h : PropSec mode ids ps s)
    (hs : s.length ≤ 268435455) {o : Option α} (ho : o = ps.map ofList) : SecFacts mode toList o s := by
  cases h with
  | absent hv =>
    subst ho
    have := hv.length_pos
    refine ⟨by simp [optList], by simp [optList], fun q hq => by simp at hq, ?_, by
      simp [optList]; omega⟩
    rw [Option.map_none, optSection, propSection_nil_len]; omega
  | @present v plen ps ws c hv hpos hrun hle hok =>
    subst ho
    obtain ⟨hf, hl⟩ := run_facts hrun
    have hmem : ∀ q ∈ toList (ofList ps), q ∈ ps := fun q hq => (hw ps).mem hq
    have hlen : (encProps (toList (ofList ps))).length ≤ ws.length := by
      have := hw ps (fun q => q.enc.length)
      rw [wsum_enc, wsum_enc] at this
      omega
    have hvp := hv.length_pos
    refine ⟨fun q hq => (hok q (hmem q hq)).2, fun q hq => hf q (hmem q hq), ?_, ?_, ?_⟩
    · intro q hq
      simp only [Option.map_some, Option.some.injEq] at hq
      subst hq
      cases ps with
      | nil => cases hrun; omega
      | cons p ps => exact hne (.head _) (hok p (.head _)).1
    · have hm := varint_minimal hv
      have hov : ws.length ≤ plen + 131074 := by
        rcases run_overrun hrun with h | h
        · rw [h]; exact Nat.zero_le _
        · omega
      have h4 : (varint (encProps (toList (ofList ps))).length).length ≤ v.length + 2 := by
        by_cases hp : plen < 128
        · exact Nat.le_trans (varint_length_le (k := 2) (by omega)) (by omega)
        · have h2 := varint_length_ge (n := plen) (k := 1) (by omega)
          have := varint_length_le (n := (encProps (toList (ofList ps))).length) (k := 3) (by
            rw [List.length_append] at hs
            omega)
          omega
      simp only [Option.map_some, optSection, propSection, List.length_append]
      omega
    · have h1 := wsum_mono dataW_le (toList (ofList ps))
      rw [wsum_enc] at h1
      simp only [Option.map_some, optList, List.length_append]
      omega


/-- What the tail of an acknowledgement says about the decoded record. -/
structure TailFacts {α : Type} (mode : StrMode) (toList : α → List Property) (code : UInt8)
    (o : Option α) (n : Nat) : Prop where
  texts : ∀ q ∈ optList toList o, q.TextsOk mode
  fits : ∀ q ∈ optList toList o, q.Fits
  nonEmpty : NonEmptyRecord toList o
  len : (ackTail code toList o).length ≤ n + 2
  data : wsum dataW (optList toList o) ≤ n

theorem SecFacts.tail {α : Type} {toList : α → List Property} {o : Option α} {s : Bytes}
    (h : SecFacts mode toList o s) (code : UInt8) {n : Nat} (hn : s.length + 1 ≤ n) :
    TailFacts mode toList code o n := by
  refine ⟨h.texts, h.fits, h.nonEmpty, ?_, ?_⟩
  · have h1 := h.len
    cases o with
    | none =>
      simp only [ackTail, optSection] at *
      split
      · simp
      · simp only [List.length_cons]; omega
    | some q =>
      simp only [ackTail, optSection, List.length_cons] at *
      omega
  · have := h.data; omega

theorem TailFacts.none {α : Type} {toList : α → List Property} (code : UInt8) (n : Nat) :
    TailFacts mode toList code none n := by
  refine ⟨by simp [optList], by simp [optList], fun q hq => by simp at hq, ?_, by simp [optList]⟩
  simp only [ackTail]
  split
  · simp
  · rw [List.length_cons, propSection_nil_len]; omega

theorem tailFacts {α : Type} {ids : List UInt8} {toList : α → List Property}
    {ofList : List Property → α} (hw : ∀ l, Within (toList (ofList l)) l)
    (hne : ∀ {l : List Property} {p : Property}, p ∈ l → p.id ∈ ids → toList (ofList l) ≠ [])
    {code : UInt8} {o : Option α} {w : Bytes} (h : AckTailRep mode ids ofList code o w)
    (hs : w.length ≤ 268435455) : TailFacts mode toList code o w.length := by
  rcases h with ⟨-, -, rfl⟩ | ⟨-, rfl⟩ | ⟨ps, s, trail, rfl, hp, ho⟩
  · exact .none _ _
  · exact .none _ _
  · simp only [List.length_append, List.length_cons, List.length_nil] at hs
    refine (secFacts hw hne hp (by omega) ho).tail code ?_
    simp only [List.length_append, List.length_cons, List.length_nil]; omega

/-- What a body of `n` bytes says about the packet it is decoded to. -/
structure Facts (mode : StrMode) (n : Nat) (p : Packet) : Prop where
  strings : StringsOk mode p
  fields : ∀ s ∈ fields p, s.length ≤ 65535
  fits : ∀ q ∈ props p, q.Fits
  shape : WellFormed p
  norm : norm p = p
  len : (body p).length ≤ n + 4
  data : dataSize p ≤ n

theorem fits_strings {q : Property} (h : q.Fits) : ∀ s ∈ q.strings, s.length ≤ 65535 := by
  cases q <;> simp_all [Property.Fits, Property.strings, Property.texts]

theorem fits_ids {l : List Property} (h : ∀ q ∈ l, q.Fits) :
    ∀ n, Property.subscriptionIdentifier n ∈ l → n ≤ 268435455 := fun n hn => h _ hn

theorem normProps_self {α : Type} {toList : α → List Property} {o : Option α}
    (h : NonEmptyRecord toList o) : normProps toList o = o := by
  cases o with
  | none => rfl
  | some q => simp [normProps, h q rfl]


theorem total_nil : total [] = 0 := rfl
theorem total_cons (s : Bytes) (l : List Bytes) : total (s :: l) = s.length + total l := rfl
theorem total_append (l l' : List Bytes) : total (l ++ l') = total l + total l' := by
  simp [total]

theorem dataSize_eq (p : Packet) :
    dataSize p = total (Spec.fields p) + wsum dataW (props p) + entries p := rfl

theorem PubAck.facts {b1 : Nat} {bd : Bytes} {p : PubAck} (h : BodyRep mode b1 bd (.PubAck p))
    (hn : bd.length ≤ 268435455) : Facts mode bd.length (.PubAck p) := by
  obtain ⟨w, rfl, h⟩ := h
  rw [List.length_append] at *
  have hf := tailFacts PubAckProperties.within PubAckProperties.toList_ne h (by omega)
  refine ⟨⟨by simp [Spec.texts], hf.texts⟩, by simp [Spec.fields, Spec.texts], hf.fits,
    ⟨by simp [Spec.fields, Spec.texts], fun q hq => fits_strings (hf.fits q hq),
      fits_ids hf.fits, hf.nonEmpty⟩, ?_, ?_, ?_⟩
  · simp only [Spec.norm, normProps_self hf.nonEmpty]
  · have := hf.len
    simp only [Spec.body, List.length_append]; omega
  · have := hf.data
    simp only [dataSize_eq, Spec.fields, Spec.texts, entries, Spec.props, List.append_nil, total_nil]
    omega

theorem PubRec.facts {b1 : Nat} {bd : Bytes} {p : PubRec} (h : BodyRep mode b1 bd (.PubRec p))
    (hn : bd.length ≤ 268435455) : Facts mode bd.length (.PubRec p) := by
  obtain ⟨w, rfl, h⟩ := h
  rw [List.length_append] at *
  have hf := tailFacts PubRecProperties.within PubRecProperties.toList_ne h (by omega)
  refine ⟨⟨by simp [Spec.texts], hf.texts⟩, by simp [Spec.fields, Spec.texts], hf.fits,
    ⟨by simp [Spec.fields, Spec.texts], fun q hq => fits_strings (hf.fits q hq),
      fits_ids hf.fits, hf.nonEmpty⟩, ?_, ?_, ?_⟩
  · simp only [Spec.norm, normProps_self hf.nonEmpty]
  · have := hf.len
    simp only [Spec.body, List.length_append]; omega
  · have := hf.data
    simp only [dataSize_eq, Spec.fields, Spec.texts, entries, Spec.props, List.append_nil, total_nil]
    omega

theorem PubRel.facts {b1 : Nat} {bd : Bytes} {p : PubRel} (h : BodyRep mode b1 bd (.PubRel p))
    (hn : bd.length ≤ 268435455) : Facts mode bd.length (.PubRel p) := by
  obtain ⟨w, rfl, h⟩ := h
  rw [List.length_append] at *
  have hf := tailFacts PubRelProperties.within PubRelProperties.toList_ne h (by omega)
  refine ⟨⟨by simp [Spec.texts], hf.texts⟩, by simp [Spec.fields, Spec.texts], hf.fits,
    ⟨by simp [Spec.fields, Spec.texts], fun q hq => fits_strings (hf.fits q hq),
      fits_ids hf.fits, hf.nonEmpty⟩, ?_, ?_, ?_⟩
  · simp only [Spec.norm, normProps_self hf.nonEmpty]
  · have := hf.len
    simp only [Spec.body, List.length_append]; omega
  · have := hf.data
    simp only [dataSize_eq, Spec.fields, Spec.texts, entries, Spec.props, List.append_nil, total_nil]
    omega

theorem PubComp.facts {b1 : Nat} {bd : Bytes} {p : PubComp} (h : BodyRep mode b1 bd (.PubComp p))
    (hn : bd.length ≤ 268435455) : Facts mode bd.length (.PubComp p) := by
  obtain ⟨w, rfl, h⟩ := h
  rw [List.length_append] at *
  have hf := tailFacts PubCompProperties.within PubCompProperties.toList_ne h (by omega)
  refine ⟨⟨by simp [Spec.texts], hf.texts⟩, by simp [Spec.fields, Spec.texts], hf.fits,
    ⟨by simp [Spec.fields, Spec.texts], fun q hq => fits_strings (hf.fits q hq),
      fits_ids hf.fits, hf.nonEmpty⟩, ?_, ?_, ?_⟩
  · simp only [Spec.norm, normProps_self hf.nonEmpty]
  · have := hf.len
    simp only [Spec.body, List.length_append]; omega
  · have := hf.data
    simp only [dataSize_eq, Spec.fields, Spec.texts, entries, Spec.props, List.append_nil, total_nil]
    omega

theorem SubAck.facts {b1 : Nat} {bd : Bytes} {p : SubAck} (h : BodyRep mode b1 bd (.SubAck p))
    (hn : bd.length ≤ 268435455) : Facts mode bd.length (.SubAck p) := by
  obtain ⟨hne, ps, s, rfl, h, ho⟩ := h
  simp only [List.length_append, List.length_map] at *
  have hf := secFacts SubAckProperties.within SubAckProperties.toList_ne h (by omega) ho
  refine ⟨⟨by simp [Spec.texts], hf.texts⟩, by simp [Spec.fields, Spec.texts], hf.fits,
    ⟨by simp [Spec.fields, Spec.texts], fun q hq => fits_strings (hf.fits q hq),
      fits_ids hf.fits, hf.nonEmpty, hne⟩, ?_, ?_, ?_⟩
  · simp only [Spec.norm, normProps_self hf.nonEmpty]
  · have := hf.len
    simp only [Spec.body, List.length_append, List.length_map]; omega
  · have := hf.data
    simp only [dataSize_eq, Spec.fields, Spec.texts, entries, Spec.props, List.append_nil, total_nil]
    omega

theorem UnsubAck.facts {b1 : Nat} {bd : Bytes} {p : UnsubAck} (h : BodyRep mode b1 bd (.UnsubAck p))
    (hn : bd.length ≤ 268435455) : Facts mode bd.length (.UnsubAck p) := by
  obtain ⟨hne, ps, s, rfl, h, ho⟩ := h
  simp only [List.length_append, List.length_map] at *
  have hf := secFacts UnsubAckProperties.within UnsubAckProperties.toList_ne h (by omega) ho
  refine ⟨⟨by simp [Spec.texts], hf.texts⟩, by simp [Spec.fields, Spec.texts], hf.fits,
    ⟨by simp [Spec.fields, Spec.texts], fun q hq => fits_strings (hf.fits q hq),
      fits_ids hf.fits, hf.nonEmpty, hne⟩, ?_, ?_, ?_⟩
  · simp only [Spec.norm, normProps_self hf.nonEmpty]
  · have := hf.len
    simp only [Spec.body, List.length_append, List.length_map]; omega
  · have := hf.data
    simp only [dataSize_eq, Spec.fields, Spec.texts, entries, Spec.props, List.append_nil, total_nil]
    omega

theorem ConnAck.facts {b1 : Nat} {bd : Bytes} {p : ConnAck} (h : BodyRep mode b1 bd (.ConnAck p))
    (hn : bd.length ≤ 268435455) : Facts mode bd.length (.ConnAck p) := by
  obtain ⟨fl, code, ps, s, trail, rfl, -, hc, h, ho⟩ := h
  simp only [List.length_append, List.length_cons, List.length_nil] at *
  have hf := secFacts ConnAckProperties.within ConnAckProperties.toList_ne h (by omega) ho
  refine ⟨⟨by simp [Spec.texts], hf.texts⟩, by simp [Spec.fields, Spec.texts], hf.fits,
    ⟨by simp [Spec.fields, Spec.texts], fun q hq => fits_strings (hf.fits q hq),
      fits_ids hf.fits, hf.nonEmpty, code, hc⟩, ?_, ?_, ?_⟩
  · simp only [Spec.norm, normProps_self hf.nonEmpty]
  · have := hf.len
    simp only [Spec.body, List.length_append, List.length_cons, List.length_nil]; omega
  · have := hf.data
    simp only [dataSize_eq, Spec.fields, Spec.texts, entries, Spec.props, List.append_nil, total_nil]
    omega

theorem Publish.facts {b1 : Nat} {bd : Bytes} {p : Publish} (h : BodyRep mode b1 bd (.Publish p))
    (hn : bd.length ≤ 268435455) : Facts mode bd.length (.Publish p) := by
  obtain ⟨-, -, -, hid, ht, ps, s, rfl, h, ho⟩ := h
  simp only [List.length_append, str_length] at *
  have hf := secFacts PublishProperties.within PublishProperties.toList_ne h (by omega) ho
  refine ⟨⟨by simp [Spec.texts, ht.2], hf.texts⟩, by simp [Spec.fields, Spec.texts, ht.1], hf.fits,
    ⟨by simp [Spec.fields, Spec.texts, ht.1], fun q hq => fits_strings (hf.fits q hq),
      fits_ids hf.fits, hf.nonEmpty, hid⟩, ?_, ?_, ?_⟩
  · have : (if p.qos = .AtMostOnce then 0 else p.pkid) = p.pkid := by
      split
      · exact (hid.2 ‹_›).symm
      · rfl
    simp only [Spec.norm, normProps_self hf.nonEmpty, this]
  · have := hf.len
    simp only [Spec.body, List.length_append, str_length]; omega
  · have := hf.data
    simp only [dataSize_eq, Spec.fields, Spec.texts, entries, Spec.props, List.append_nil, total_cons,
      total_nil]
    omega

theorem filters_facts {l : List Filter} {w : Bytes} (h : SeqRep (FilterRep mode) l w) :
    (∀ f ∈ l, TextField mode f.path) ∧ (l.flatMap filterBytes).length = w.length ∧
      total (l.map (·.path)) + l.length ≤ w.length := by
  induction h with
  | nil => simp [total]
  | @cons f w l ws h1 _ ih =>
    obtain ⟨ht, o, -, rfl⟩ := h1
    obtain ⟨i1, i2, i3⟩ := ih
    refine ⟨?_, ?_, ?_⟩
    · intro g hg
      rcases List.mem_cons.1 hg with rfl | hg
      · exact ht
      · exact i1 g hg
    · simp only [List.flatMap_cons, List.length_append, filterBytes, List.length_cons,
        List.length_nil, i2]
    · simp only [List.map_cons, total_cons, List.length_append, str_length, List.length_cons,
        List.length_nil]
      omega

theorem Subscribe.facts {b1 : Nat} {bd : Bytes} {p : Subscribe}
    (h : BodyRep mode b1 bd (.Subscribe p)) (hn : bd.length ≤ 268435455) :
    Facts mode bd.length (.Subscribe p) := by
  obtain ⟨hne, ps, s, w, rfl, h, ho, hw⟩ := h
  simp only [List.length_append] at *
  have hf := secFacts SubscribeProperties.within SubscribeProperties.toList_ne h (by omega) ho
  obtain ⟨h1, h2, h3⟩ := filters_facts hw
  have h4 : ∀ s ∈ Spec.fields (.Subscribe p), s.length ≤ 65535 := by
    intro s hs
    simp only [Spec.fields, Spec.texts, List.append_nil, List.mem_map] at hs
    obtain ⟨f, hf, rfl⟩ := hs
    exact (h1 f hf).1
  refine ⟨⟨?_, hf.texts⟩, h4, hf.fits, ⟨h4, fun q hq => fits_strings (hf.fits q hq),
      fits_ids hf.fits, hf.nonEmpty, hne⟩, ?_, ?_, ?_⟩
  · intro s hs
    simp only [Spec.texts, List.mem_map] at hs
    obtain ⟨f, hf, rfl⟩ := hs
    exact (h1 f hf).2
  · simp only [Spec.norm, normProps_self hf.nonEmpty]
  · have := hf.len
    simp only [Spec.body, List.length_append, h2]; omega
  · have := hf.data
    simp only [dataSize_eq, Spec.fields, Spec.texts, entries, Spec.props, List.append_nil]
    omega

theorem strs_facts {l : List Bytes} {w : Bytes}
    (h : SeqRep (fun f w => TextField mode f ∧ w = str f) l w) :
    (∀ f ∈ l, TextField mode f) ∧ (l.flatMap str).length = w.length ∧
      total l + l.length ≤ w.length := by
  induction h with
  | nil => simp [total]
  | @cons f w l ws h1 _ ih =>
    obtain ⟨ht, rfl⟩ := h1
    obtain ⟨i1, i2, i3⟩ := ih
    refine ⟨?_, ?_, ?_⟩
    · intro g hg
      rcases List.mem_cons.1 hg with rfl | hg
      · exact ht
      · exact i1 g hg
    · simp only [List.flatMap_cons, List.length_append, i2]
    · simp only [total_cons, List.length_append, str_length, List.length_cons]
      omega

theorem Unsubscribe.facts {b1 : Nat} {bd : Bytes} {p : Unsubscribe}
    (h : BodyRep mode b1 bd (.Unsubscribe p)) (hn : bd.length ≤ 268435455) :
    Facts mode bd.length (.Unsubscribe p) := by
  obtain ⟨ps, s, w, rfl, h, ho, hw⟩ := h
  simp only [List.length_append] at *
  have hf := secFacts UnsubscribeProperties.within UnsubscribeProperties.toList_ne h (by omega) ho
  obtain ⟨h1, h2, h3⟩ := strs_facts hw
  have h4 : ∀ s ∈ Spec.fields (.Unsubscribe p), s.length ≤ 65535 := by
    intro s hs
    simp only [Spec.fields, Spec.texts, List.append_nil] at hs
    exact (h1 s hs).1
  refine ⟨⟨fun s hs => (h1 s hs).2, hf.texts⟩, h4, hf.fits,
    ⟨h4, fun q hq => fits_strings (hf.fits q hq), fits_ids hf.fits, hf.nonEmpty⟩, ?_, ?_, ?_⟩
  · simp only [Spec.norm, normProps_self hf.nonEmpty]
  · have := hf.len
    simp only [Spec.body, List.length_append, h2]; omega
  · have := hf.data
    simp only [dataSize_eq, Spec.fields, Spec.texts, entries, Spec.props, List.append_nil]
    omega

theorem Disconnect.facts {b1 : Nat} {bd : Bytes} {p : Disconnect}
    (h : BodyRep mode b1 bd (.Disconnect p)) (hn : bd.length ≤ 268435455) :
    Facts mode bd.length (.Disconnect p) := by
  have hf : TailFacts mode DisconnectProperties.toList (disconnectCode p.reason_code) p.properties
      bd.length := by
    obtain ⟨-, h⟩ := h
    rcases h with ⟨-, -, h⟩ | ⟨ps, s, trail, rfl, h, ho⟩
    · rw [h]; exact .none _ _
    · simp only [List.length_append, List.length_cons, List.length_nil] at *
      exact (secFacts DisconnectProperties.within DisconnectProperties.toList_ne h (by omega)
        ho).tail _ (by omega)
  refine ⟨⟨by simp [Spec.texts], hf.texts⟩, by simp [Spec.fields, Spec.texts], hf.fits,
    ⟨by simp [Spec.fields, Spec.texts], fun q hq => fits_strings (hf.fits q hq),
      fits_ids hf.fits, hf.nonEmpty⟩, ?_, ?_, ?_⟩
  · simp only [Spec.norm, normProps_self hf.nonEmpty]
  · have := hf.len
    simp only [Spec.body]; omega
  · have := hf.data
    simp only [dataSize_eq, Spec.fields, Spec.texts, entries, Spec.props, List.append_nil, total_nil]
    omega

theorem pingReq_facts (n : Nat) : Facts mode n .PingReq := by
  refine ⟨⟨by simp [Spec.texts], by simp [Spec.props]⟩, by simp [Spec.fields, Spec.texts],
    by simp [Spec.props], ⟨by simp [Spec.fields, Spec.texts], by simp [Spec.props],
    by simp [Spec.props], trivial⟩, rfl, by simp [Spec.body], by
      simp [dataSize_eq, Spec.fields, Spec.texts, Spec.props, entries, total]⟩

theorem pingResp_facts (n : Nat) : Facts mode n .PingResp := by
  refine ⟨⟨by simp [Spec.texts], by simp [Spec.props]⟩, by simp [Spec.fields, Spec.texts],
    by simp [Spec.props], ⟨by simp [Spec.fields, Spec.texts], by simp [Spec.props],
    by simp [Spec.props], trivial⟩, rfl, by simp [Spec.body], by
      simp [dataSize_eq, Spec.fields, Spec.texts, Spec.props, entries, total]⟩

/-- What a will on the wire says about the decoded will. -/
structure WillFacts (mode : StrMode) (o : Option LastWill) (n : Nat) : Prop where
  texts : ∀ w, o = some w → ∀ q ∈ optList LastWillProperties.toList w.properties, q.TextsOk mode
  fits : ∀ w, o = some w → ∀ q ∈ optList LastWillProperties.toList w.properties, q.Fits
  nonEmpty : ∀ w, o = some w → NonEmptyRecord LastWillProperties.toList w.properties
  fields : ∀ w, o = some w → w.topic.length ≤ 65535 ∧ w.message.length ≤ 65535
  len : (match o with | some w => willBytes w | none => []).length ≤ n + 2
  data : (match o with
    | some w => w.topic.length + w.message.length +
        wsum dataW (optList LastWillProperties.toList w.properties)
    | none => 0) ≤ n

theorem willFacts {flags : Nat} {o : Option LastWill} {w : Bytes} (h : WillRep mode flags o w)
    (hs : w.length ≤ 268435455) : WillFacts mode o w.length := by
  cases o with
  | none => exact ⟨nofun, nofun, nofun, nofun, by simp, by simp⟩
  | some x =>
    obtain ⟨-, -, -, h1, h2, ps, s, h, ho, rfl⟩ := h
    simp only [List.length_append, str_length] at *
    have hf := secFacts LastWillProperties.within LastWillProperties.toList_ne h (by omega) ho
    have hl := hf.len
    have hd := hf.data
    refine ⟨?_, ?_, ?_, ?_, ?_, ?_⟩
    · rintro w ⟨⟩; exact hf.texts
    · rintro w ⟨⟩; exact hf.fits
    · rintro w ⟨⟩; exact hf.nonEmpty
    · rintro w ⟨⟩; exact ⟨h1, h2⟩
    · simp only [willBytes, List.length_append, str_length]; omega
    · simp only []; omega

theorem flagField_facts {n : Nat} {s w : Bytes} (h : FlagField mode n s w) :
    TextField mode s ∧ (optStr s).length ≤ w.length ∧ s.length ≤ w.length := by
  rcases h with ⟨-, h, rfl⟩ | ⟨-, rfl, rfl⟩
  · refine ⟨h, ?_, by rw [str_length]; omega⟩
    unfold optStr; split <;> simp
  · exact ⟨⟨by simp, by cases mode <;> decide +kernel⟩, by simp [optStr], by simp⟩

/-- What a login on the wire says about the decoded login. -/
structure LoginFacts (mode : StrMode) (o : Option Login) (n : Nat) : Prop where
  texts : ∀ l, o = some l → TextField mode l.username ∧ TextField mode l.password
  nonEmpty : ∀ l, o = some l → l.username ≠ [] ∨ l.password ≠ []
  len : (match o with | some l => loginBytes l | none => []).length ≤ n
  data : (match o with | some l => l.username.length + l.password.length | none => 0) ≤ n

theorem loginFacts {flags : Nat} {o : Option Login} {w : Bytes} (h : LoginRep mode flags o w) :
    LoginFacts mode o w.length := by
  obtain ⟨u, p, wu, wp, hu, hp, rfl, ho⟩ := h
  obtain ⟨u1, u2, u3⟩ := flagField_facts hu
  obtain ⟨p1, p2, p3⟩ := flagField_facts hp
  split at ho
  · subst ho; exact ⟨nofun, nofun, by simp, by simp⟩
  · next hne =>
    subst ho
    refine ⟨?_, ?_, ?_, ?_⟩
    · rintro l ⟨⟩; exact ⟨u1, p1⟩
    · rintro l ⟨⟩
      by_cases he : u = []
      · exact .inr fun h => hne ⟨he, h⟩
      · exact .inl he
    · simp only [loginBytes, List.length_append]; omega
    · simp only [List.length_append]; omega

theorem Connect.facts {b1 : Nat} {bd : Bytes} {c : Connect} {will : Option LastWill}
    {login : Option Login} (h : BodyRep mode b1 bd (.Connect c will login))
    (hn : bd.length ≤ 268435455) : Facts mode bd.length (.Connect c will login) := by
  obtain ⟨fl, ps, s, ww, wl, trail, rfl, -, h, ho, ht, hw, hl⟩ := h
  simp only [List.length_append, List.length_cons, List.length_nil, str_length] at *
  have hf := secFacts ConnectProperties.within ConnectProperties.toList_ne h (by omega) ho
  have hw := willFacts hw (by omega)
  have hl := loginFacts hl
  have f1 := hf.len
  have f2 := hf.data
  have w1 := hw.len
  have w2 := hw.data
  have l1 := hl.len
  have l2 := hl.data
  have htx : ∀ s ∈ Spec.texts (.Connect c will login), TextField mode s := by
    intro s hs
    cases login with
    | none => simp only [Spec.texts, List.mem_singleton] at hs; exact hs ▸ ht
    | some l =>
      have := hl.texts l rfl
      simp only [Spec.texts, List.mem_cons, List.not_mem_nil, or_false] at hs
      rcases hs with rfl | rfl | rfl
      · exact ht
      · exact this.1
      · exact this.2
  have hfl : ∀ s ∈ Spec.fields (.Connect c will login), s.length ≤ 65535 := by
    intro s hs
    rcases List.mem_append.1 hs with hs | hs
    · exact (htx s hs).1
    · cases will with
      | none => simp at hs
      | some w =>
        have := hw.fields w rfl
        simp only [List.mem_cons, List.not_mem_nil, or_false] at hs
        rcases hs with rfl | rfl
        · exact this.1
        · exact this.2
  have hpr : ∀ q ∈ Spec.props (.Connect c will login), q.Fits ∧ q.TextsOk mode := by
    intro q hq
    rcases List.mem_append.1 hq with hq | hq
    · exact ⟨hf.fits q hq, hf.texts q hq⟩
    · cases will with
      | none => simp at hq
      | some w => exact ⟨hw.fits w rfl q hq, hw.texts w rfl q hq⟩
  refine ⟨⟨fun s hs => (htx s hs).2, fun q hq => (hpr q hq).2⟩, hfl, fun q hq => (hpr q hq).1,
    ⟨hfl, fun q hq => fits_strings (hpr q hq).1, fits_ids fun q hq => (hpr q hq).1, hf.nonEmpty,
      hw.nonEmpty, hl.nonEmpty⟩, ?_, ?_, ?_⟩
  · simp only [Spec.norm, normProps_self hf.nonEmpty]
    congr 1
    · cases will with
      | none => rfl
      | some w => simp only [Option.map_some, normProps_self (hw.nonEmpty w rfl)]
    · cases login with
      | none => rfl
      | some l =>
        have := hl.nonEmpty l rfl
        simp only [Option.filter, Bool.not_and, Bool.or_eq_true, Bool.not_eq_true',
          List.isEmpty_eq_false_iff]
        rw [if_pos this]
  · clear w2 l2
    cases will <;> cases login <;>
      simp only [Spec.body, List.length_append, List.length_cons, List.length_nil, str_length] at * <;>
      omega
  · cases will <;> cases login <;>
      simp only [dataSize_eq, Spec.fields, Spec.texts, entries, Spec.props, List.append_nil,
        total_nil, total_cons, total_append, wsum_append, List.length_append] at * <;> omega

theorem facts {b1 : Nat} {bd : Bytes} {p : Packet} (h : BodyRep mode b1 bd p)
    (hn : bd.length ≤ 268435455) : Facts mode bd.length p := by
  cases p with
  | Connect c w l => exact Connect.facts h hn
  | ConnAck p => exact ConnAck.facts h hn
  | Publish p => exact Publish.facts h hn
  | PubAck p => exact PubAck.facts h hn
  | PubRec p => exact PubRec.facts h hn
  | PubRel p => exact PubRel.facts h hn
  | PubComp p => exact PubComp.facts h hn
  | Subscribe p => exact Subscribe.facts h hn
  | SubAck p => exact SubAck.facts h hn
  | Unsubscribe p => exact Unsubscribe.facts h hn
  | UnsubAck p => exact UnsubAck.facts h hn
  | PingReq => exact pingReq_facts _
  | PingResp => exact pingResp_facts _
  | Disconnect p => exact Disconnect.facts h hn

/-- Facts about the result of `Packet::read`. -/
theorem read_facts {max : Option Nat} {b r : Bytes} {p : Packet}
    (h : Packet.read mode max b = (.ok p, r)) :
    ∃ b1 v bd, b = b1 :: (v ++ bd ++ r) ∧ VarintRep v bd.length ∧ BodyRep mode b1.toNat bd p ∧
      Facts mode bd.length p := by
  obtain ⟨b1, v, bd, rfl, hv, -, -, hb⟩ := read_ok_iff.1 h
  exact ⟨b1, v, bd, by simp, hv, hb, facts hb hv.le⟩

end Mqtt
