import Verif.Spec.Drift
import Verif.Props.Sections
import Verif.Proofs.Decoded
import Verif.Proofs.Diagnose
/-
C24, C25, C26, C39 exactly, for the two packets with subscription identifiers.
-/
namespace Props

open Mqtt Spec

theorem seqRep_prefix {ps : List Property} {w w' r r' : Bytes} (h : SeqRep PropRep ps w)
    (h' : SeqRep PropRep ps w') (he : w ++ r = w' ++ r') : w = w' ∧ r = r' := by
  induction h generalizing w' with
  | nil => cases h'; exact ⟨rfl, he⟩
  | @cons p w ps ws h1 _ ih =>
    cases h' with
    | @cons _ v _ vs h1' h2' =>
      rw [List.append_assoc, List.append_assoc] at he
      obtain ⟨-, rfl, he2⟩ := propRep_unique h1 h1' he
      obtain ⟨rfl, rfl⟩ := ih h2' he2
      exact ⟨rfl, rfl⟩

/-- The walk through a section whose announced length is reached within `ps`. -/
theorem run_stop {plen : Nat} {ps : List Property} {ws : Bytes} (h : SeqRep PropRep ps ws) :
    ∀ c, plen ≤ c + ws.length + subIds ps → ∃ pre post w1 w2 c', ps = pre ++ post ∧
      ws = w1 ++ w2 ∧ SeqRep PropRep post w2 ∧ Run plen c pre w1 c' ∧ plen ≤ c' := by
  induction h with
  | nil => intro c hc; exact ⟨[], [], [], [], c, rfl, rfl, .nil, .nil c, by simpa [subIds, all] using hc⟩
  | @cons p w ps ws h1 h2 ih =>
    intro c hc
    by_cases hl : c < plen
    · rw [subIds_cons, List.length_append] at hc
      obtain ⟨pre, post, w1, w2, c', rfl, rfl, h3, h4, h5⟩ := ih (c + w.length + p.drift) (by omega)
      exact ⟨p :: pre, post, w ++ w1, w2, c', rfl, by simp, h3, .cons hl h1 h4, h5⟩
    · exact ⟨[], p :: ps, [], w ++ ws, c, rfl, rfl, .cons h1 h2, .nil c, by omega⟩

theorem stops_of_run {ps post pre : List Property} {w1 w2 : Bytes} {c' : Nat}
    (he : ps = pre ++ post) (hp : SeqRep PropRep post w2)
    (hr : Run (w1 ++ w2).length 0 pre w1 c') (hc : (w1 ++ w2).length ≤ c') :
    Stops ps (w1 ++ w2) pre w1 w2 := by
  obtain ⟨h1, h2⟩ := run_seq hr
  rw [List.length_append] at hc
  refine ⟨⟨post, he, hp⟩, rfl, h1, by omega, fun init lst wa wb e1 e2 e3 e4 => ?_⟩
  have := run_last hr init lst wa wb e1 e2 e3 e4
  rw [List.length_append, e2, List.length_append] at this
  omega

theorem stops_exists {ps : List Property} {ws : Bytes} (h : SeqRep PropRep ps ws) :
    ∃ pre w1 w2 c', Stops ps ws pre w1 w2 ∧ Run ws.length 0 pre w1 c' ∧ ws.length ≤ c' := by
  obtain ⟨pre, post, w1, w2, c', rfl, rfl, h1, h2, h3⟩ := run_stop (plen := ws.length) h 0 (by omega)
  exact ⟨pre, w1, w2, c', stops_of_run rfl h1 h2 h3, h2, h3⟩

theorem stops_le {ps pre pre' : List Property} {ws w1 w2 w1' w2' : Bytes}
    (h : Stops ps ws pre w1 w2) (h' : Stops ps ws pre' w1' w2') (hl : pre.length < pre'.length) :
    False := by
  obtain ⟨post, e1, -⟩ := h.props
  obtain ⟨post', e2, -⟩ := h'.props
  obtain ⟨mid, hmid⟩ : ∃ mid, pre' = pre ++ mid := by
    refine ⟨pre'.drop pre.length, ?_⟩
    have := congrArg (List.take pre'.length) (e1.symm.trans e2)
    rw [List.take_left, List.take_append, List.take_of_length_le (by omega)] at this
    rw [← this, List.drop_left]
  subst hmid
  have hm : mid ≠ [] := by rintro rfl; simp at hl
  obtain ⟨mid, lst, rfl⟩ : ∃ m l, mid = m ++ [l] :=
    ⟨mid.dropLast, mid.getLast hm, (List.dropLast_concat_getLast hm).symm⟩
  have hr := h'.read
  rw [← List.append_assoc] at hr
  obtain ⟨wa, wb, e3, hwa, hwb⟩ := seqRep_split hr
  obtain ⟨wa1, wa2, e4, hwa1, hwa2⟩ := seqRep_split hwa
  have hlst : PropRep lst wb := by
    cases hwb with
    | cons h1 h2 => cases h2; rw [List.append_nil]; exact h1
  have hf := h'.first (pre ++ mid) lst wa wb (by simp) e3 hwa hlst
  have hb := h.bytes.symm.trans h'.bytes
  rw [e3, e4, List.append_assoc, List.append_assoc] at hb
  obtain ⟨-, e5⟩ := seqRep_prefix h.read hwa1 hb
  have hfull := h.full
  rw [e5] at hfull
  simp only [List.length_append] at hfull
  rw [subIds_append] at hf
  omega

/-- C26: in every well-formed section, exactly one beginning is where the library stops. -/
theorem C26_stops (ps : List Property) (ws : Bytes) (h : SeqRep PropRep ps ws) :
    (∃ pre w1 w2, Stops ps ws pre w1 w2) ∧
    ∀ pre pre' w1 w1' w2 w2', Stops ps ws pre w1 w2 → Stops ps ws pre' w1' w2' →
      pre = pre' ∧ w1 = w1' ∧ w2 = w2' := by
  obtain ⟨pre, w1, w2, c', h1, -⟩ := stops_exists h
  refine ⟨⟨pre, w1, w2, h1⟩, ?_⟩
  intro p q a b c d hs ht
  have hl : p.length = q.length := by
    rcases Nat.lt_trichotomy p.length q.length with h | h | h
    · exact (stops_le hs ht h).elim
    · exact h
    · exact (stops_le ht hs h).elim
  obtain ⟨_, e1, -⟩ := hs.props
  obtain ⟨_, e2, -⟩ := ht.props
  obtain ⟨rfl, -⟩ := List.append_inj (e1.symm.trans e2) hl
  exact ⟨rfl, seqRep_prefix hs.read ht.read (hs.bytes.symm.trans ht.bytes)⟩

theorem stops_propSec {mode : StrMode} {ids : List UInt8} {ps pre : List Property}
    {v ws w1 w2 : Bytes} (hv : VarintRep v ws.length) (hok : ∀ p ∈ ps, p.Ok mode ids)
    (h : Stops ps ws pre w1 w2) :
    PropSec mode ids (if pre = [] then none else some pre) (v ++ w1) := by
  obtain ⟨post, rfl, hp⟩ := h.props
  have hs : SeqRep PropRep (pre ++ post) ws := h.bytes ▸ seqRep_append h.read hp
  obtain ⟨pre', w1', w2', c', h1, h2, h3⟩ := stops_exists hs
  obtain ⟨rfl, rfl, rfl⟩ := (C26_stops _ _ hs).2 _ _ _ _ _ _ h1 h
  cases pre' with
  | nil =>
    have := h.full
    have hw1 := h.read
    cases hw1
    have hw2 : w2' = [] := by simpa [subIds, all] using this
    subst hw2
    have := h.bytes
    simp only [List.append_nil] at this
    subst this
    rw [if_pos rfl, List.append_nil]
    exact .absent hv
  | cons p pre =>
    rw [if_neg (by simp)]
    refine .present hv ?_ h2 h3 fun q hq => hok q (by simp only [List.mem_append]; exact .inl hq)
    have h4 := h.read
    cases h4 with
    | cons h5 _ =>
      have := propRep_pos h5
      rw [h.bytes, List.length_append, List.length_append]; omega

/-- C26: what the two readers do with a well-formed section. All of it is consumed, or the bytes
of the last properties are left in the stream and these properties are missing from the result. -/
theorem C26_stops_read (mode : StrMode) (ps pre : List Property) (v ws w1 w2 r : Bytes)
    (hv : VarintRep v ws.length) (h : Stops ps ws pre w1 w2) :
    ((∀ p ∈ ps, p.Ok mode Spec.PublishProperties.allowed) →
      PublishProperties.read mode (v ++ ws ++ r) =
        (.ok (propsOf Spec.PublishProperties.ofList pre), w2 ++ r)) ∧
    ((∀ p ∈ ps, p.Ok mode Spec.SubscribeProperties.allowed) →
      SubscribeProperties.read mode (v ++ ws ++ r) =
        (.ok (propsOf Spec.SubscribeProperties.ofList pre), w2 ++ r)) := by
  constructor <;> intro hok
  · exact (props_ok (PublishProperties.read_eq mode)).2
      ⟨_, v ++ w1, by rw [h.bytes]; simp, stops_propSec hv hok h, propsOf_map.symm⟩
  · exact (props_ok (SubscribeProperties.read_eq mode)).2
      ⟨_, v ++ w1, by rw [h.bytes]; simp, stops_propSec hv hok h, propsOf_map.symm⟩

/-- C26: a section is read to its end exactly if `NoLoss` holds. -/
theorem C26_no_loss_iff (ps : List Property) (ws : Bytes) (h : SeqRep PropRep ps ws) :
    Stops ps ws ps ws [] ↔ NoLoss ps ws := by
  constructor
  · intro hs pre p post w1 w2 e1 e2 h1 h2
    subst e1
    subst e2
    have hne : p :: post ≠ [] := by simp
    obtain ⟨m, l, hml⟩ : ∃ m l, p :: post = m ++ [l] :=
      ⟨_, _, (List.dropLast_concat_getLast hne).symm⟩
    rw [hml] at h2
    obtain ⟨wa, wb, rfl, ha, hb⟩ := seqRep_split h2
    have hlb : PropRep l wb := by
      cases hb with
      | cons h5 h6 => cases h6; rw [List.append_nil]; exact h5
    have := hs.first (pre ++ m) l (w1 ++ wa) wb (by rw [hml, List.append_assoc])
      (by simp) (seqRep_append h1 ha) hlb
    rw [subIds_append] at this
    simp only [List.length_append, List.length_nil] at this ⊢
    omega
  · intro hn
    refine ⟨⟨[], by simp, .nil⟩, by simp, h, by simp, ?_⟩
    intro init lst wa wb e1 e2 h1 h2
    have := hn init lst [] wa wb e1 e2 h1 (by
      have := SeqRep.cons h2 (SeqRep.nil (R := PropRep)); rwa [List.append_nil] at this)
    simp only [List.length_nil]
    omega


theorem propSec_prefix {mode : StrMode} {ids : List UInt8} {o o' : Option (List Property)}
    {s s' r r' : Bytes} (h : PropSec mode ids o s) (h' : PropSec mode ids o' s')
    (he : s ++ r = s' ++ r') : o = o' ∧ s = s' ∧ r = r' := by
  have e1 := gRead_sec (r := r).2 ⟨s, rfl, h⟩
  have e2 := gRead_sec (r := r').2 ⟨s', rfl, h'⟩
  rw [← he, e1] at e2
  injection e2 with e3 e4
  injection e3 with e3
  subst e4
  exact ⟨e3, List.append_cancel_right he, rfl⟩

/-- Nothing is left only if everything was read. -/
theorem stops_nil {ps pre : List Property} {ws w1 : Bytes} (h : Stops ps ws pre w1 []) :
    Stops ps ws ps ws [] := by
  obtain ⟨post, rfl, hp⟩ := h.props
  have hpost : post = [] := by
    generalize hw : ([] : Bytes) = w at hp
    cases hp with
    | nil => rfl
    | cons h1 _ =>
      have := propRep_pos h1
      rw [eq_comm, List.append_eq_nil_iff] at hw
      rw [hw.1] at this
      exact absurd this (by simp)
  subst hpost
  have hb := h.bytes
  simp only [List.append_nil] at h hb ⊢
  subst hb
  exact h

/-- C24, C39, PUBLISH exactly: of every well-formed section the library delivers the properties
`pre` before the point where it stops; the bytes `w2` of the others are put before the payload. -/
theorem C24_publish_exact (mode : StrMode) (max : Option Nat) (b1 : UInt8) (qos : QoS)
    (pkid : UInt16) (ps pre : List Property) (topic v ws w1 w2 payload f r : Bytes)
    (hf : FrameOf b1
      (str topic ++ (if qos = .AtMostOnce then [] else u16 pkid) ++ (v ++ ws) ++ payload) f)
    (ht : b1.toNat / 16 = 3)
    (hm : Admits max
      (str topic ++ (if qos = .AtMostOnce then [] else u16 pkid) ++ (v ++ ws) ++ payload).length)
    (hq : qosNum qos = b1.toNat / 2 % 4) (hp : pkid = 0 ↔ qos = .AtMostOnce)
    (hc : TextField mode topic) (hv : VarintRep v ws.length)
    (hok : ∀ p ∈ ps, p.Ok mode Spec.PublishProperties.allowed) (hs : Stops ps ws pre w1 w2) :
    Packet.read mode max (f ++ r) = (.ok (.Publish {
      dup := decide (b1.toNat / 8 % 2 = 1), qos := qos, retain := decide (b1.toNat % 2 = 1),
      topic := topic, pkid := pkid, payload := w2 ++ payload,
      properties := propsOf Spec.PublishProperties.ofList pre }), r) := by
  refine frame_ok hf hm (show _ = typeNum (.Publish _) from ht) ?_ r
  refine ⟨?_, hq, ?_, hp, hc, _, v ++ w1, ?_, stops_propSec hv hok hs, propsOf_map.symm⟩
  · unfold bit
    by_cases h : b1.toNat / 8 % 2 = 1 <;> simp [h] <;> omega
  · unfold bit
    by_cases h : b1.toNat % 2 = 1 <;> simp [h] <;> omega
  · rw [hs.bytes]; simp

/-- C24, C39, PUBLISH: a well-formed packet is delivered as it was sent exactly if `NoLoss` holds;
and then, and only then, it has the payload that was sent. -/
theorem C24_publish_iff (mode : StrMode) (max : Option Nat) (b1 : UInt8) (qos : QoS)
    (pkid : UInt16) (ps : List Property) (topic v ws payload f r : Bytes)
    (hf : FrameOf b1
      (str topic ++ (if qos = .AtMostOnce then [] else u16 pkid) ++ (v ++ ws) ++ payload) f)
    (ht : b1.toNat / 16 = 3)
    (hm : Admits max
      (str topic ++ (if qos = .AtMostOnce then [] else u16 pkid) ++ (v ++ ws) ++ payload).length)
    (hq : qosNum qos = b1.toNat / 2 % 4) (hp : pkid = 0 ↔ qos = .AtMostOnce)
    (hc : TextField mode topic) (hv : VarintRep v ws.length) (hps : SeqRep PropRep ps ws)
    (hok : ∀ p ∈ ps, p.Ok mode Spec.PublishProperties.allowed) :
    (Packet.read mode max (f ++ r) = (.ok (.Publish {
      dup := decide (b1.toNat / 8 % 2 = 1), qos := qos, retain := decide (b1.toNat % 2 = 1),
      topic := topic, pkid := pkid, payload := payload,
      properties := propsOf Spec.PublishProperties.ofList ps }), r) ↔ NoLoss ps ws) ∧
    ((∃ p : Publish, Packet.read mode max (f ++ r) = (.ok (.Publish p), r) ∧
      p.payload = payload) ↔ NoLoss ps ws) := by
  obtain ⟨pre, w1, w2, -, hs, -⟩ := stops_exists hps
  have hr := C24_publish_exact mode max b1 qos pkid ps pre topic v ws w1 w2 payload f r hf ht hm hq
    hp hc hv hok hs
  have key : w2 ++ payload = payload → NoLoss ps ws := by
    intro h
    have : w2 = [] := by
      have := congrArg List.length h
      simpa using this
    subst this
    exact (C26_no_loss_iff ps ws hps).1 (stops_nil hs)
  have back : NoLoss ps ws → Packet.read mode max (f ++ r) = (.ok (.Publish {
      dup := decide (b1.toNat / 8 % 2 = 1), qos := qos, retain := decide (b1.toNat % 2 = 1),
      topic := topic, pkid := pkid, payload := payload,
      properties := propsOf Spec.PublishProperties.ofList ps }), r) := fun h =>
    C24_publish_exact mode max b1 qos pkid ps ps topic v ws ws [] payload f r hf ht hm hq hp hc hv
      hok ((C26_no_loss_iff ps ws hps).2 h)
  refine ⟨⟨fun h => key ?_, back⟩, ⟨?_, fun h => ⟨_, back h, rfl⟩⟩⟩
  · rw [hr] at h
    injection h with h
    injection h with h
    injection h with h
    injection h
  · rintro ⟨p, h, h'⟩
    rw [hr] at h
    injection h with h
    injection h with h
    injection h with h
    subst h
    exact key h'

/-- C39: a well-formed PUBLISH is delivered with the payload that was sent exactly if `NoLoss`
holds. -/
theorem C39_iff (mode : StrMode) (max : Option Nat) (b1 : UInt8) (qos : QoS)
    (pkid : UInt16) (ps : List Property) (topic v ws payload f r : Bytes)
    (hf : FrameOf b1
      (str topic ++ (if qos = .AtMostOnce then [] else u16 pkid) ++ (v ++ ws) ++ payload) f)
    (ht : b1.toNat / 16 = 3)
    (hm : Admits max
      (str topic ++ (if qos = .AtMostOnce then [] else u16 pkid) ++ (v ++ ws) ++ payload).length)
    (hq : qosNum qos = b1.toNat / 2 % 4) (hp : pkid = 0 ↔ qos = .AtMostOnce)
    (hc : TextField mode topic) (hv : VarintRep v ws.length) (hps : SeqRep PropRep ps ws)
    (hok : ∀ p ∈ ps, p.Ok mode Spec.PublishProperties.allowed) :
    (∃ p : Publish, Packet.read mode max (f ++ r) = (.ok (.Publish p), r) ∧
      p.payload = payload) ↔ NoLoss ps ws :=
  (C24_publish_iff mode max b1 qos pkid ps topic v ws payload f r hf ht hm hq hp hc hv hps hok).2

/-- C24, SUBSCRIBE: a well-formed packet is delivered as it was sent exactly if `NoLoss` holds.
Otherwise the bytes of the last properties are taken for subscriptions. -/
theorem C24_subscribe_iff (mode : StrMode) (max : Option Nat) (b1 : UInt8) (pkid : UInt16)
    (ps : List Property) (v ws w f r : Bytes) (filters : List Filter)
    (hf : FrameOf b1 (u16 pkid ++ (v ++ ws) ++ w) f) (ht : b1.toNat / 16 = 8)
    (hm : Admits max (u16 pkid ++ (v ++ ws) ++ w).length)
    (hv : VarintRep v ws.length) (hps : SeqRep PropRep ps ws)
    (hok : ∀ p ∈ ps, p.Ok mode Spec.SubscribeProperties.allowed)
    (hn : filters ≠ []) (hw : SeqRep (FilterRep mode) filters w) :
    Packet.read mode max (f ++ r) = (.ok (.Subscribe {
      pkid := pkid, filters := filters,
      properties := propsOf Spec.SubscribeProperties.ofList ps }), r) ↔ NoLoss ps ws := by
  constructor
  · intro h
    obtain ⟨pre, w1, w2, -, hs, -⟩ := stops_exists hps
    obtain ⟨-, -, -, -, ps', s', w', he, hsec, -, hw'⟩ := frame_ok_inv hf h
    have e1 := (filters_facts hw).2.1
    have e2 : w.length = w'.length := e1.symm.trans (filters_facts hw').2.1
    simp only [List.append_assoc] at he
    have he := List.append_cancel_left he
    rw [hs.bytes] at he
    obtain ⟨-, h3, h4⟩ := propSec_prefix (r := w2 ++ w) (r' := w') (stops_propSec hv hok hs) hsec
      (by rw [← he]; simp)
    have : w2 = [] := by
      have := congrArg List.length h4
      simp only [List.length_append] at this
      exact List.length_eq_zero_iff.1 (by omega)
    subst this
    exact (C26_no_loss_iff ps ws hps).1 (stops_nil hs)
  · intro h
    have hs := (C26_no_loss_iff ps ws hps).2 h
    exact frame_ok hf hm (show _ = typeNum (.Subscribe _) from ht)
      ⟨hn, _, v ++ ws, w, rfl, stops_propSec hv hok hs, propsOf_map.symm, hw⟩ r

/-- What is read of a section whose announced length is reached within the properties `ps`. -/
theorem reached_propSec {mode : StrMode} {ids : List UInt8} {ps : List Property} {v ws : Bytes}
    {plen : Nat} (hv : VarintRep v plen) (hs : SeqRep PropRep ps ws)
    (hok : ∀ p ∈ ps, p.Ok mode ids) (hl : plen ≤ ws.length + subIds ps) :
    ∃ o w1 w2, ws = w1 ++ w2 ∧ PropSec mode ids o (v ++ w1) := by
  by_cases h0 : plen = 0
  · subst h0
    exact ⟨none, [], ws, rfl, by rw [List.append_nil]; exact .absent hv⟩
  · obtain ⟨pre, post, w1, w2, c', rfl, rfl, -, h1, h2⟩ := run_stop (plen := plen) hs 0 (by omega)
    exact ⟨_, w1, w2, rfl, .present hv (by omega) h1 h2
      fun q hq => hok q (List.mem_append_left _ hq)⟩

theorem textErr_ne {mode : StrMode} {w : Bytes} {x : UInt8} :
    ¬ TextErr mode w (.InvalidPropertyType x) := by
  rintro ((⟨-, h⟩ | ⟨_, _, -, -, h⟩) | ⟨_, _, -, -, -, h⟩) <;> cases h

theorem frame_err_inv {mode : StrMode} {b1 : UInt8} {body f : Bytes} {max : Option Nat} {e : Err}
    (hf : FrameOf b1 body f) {r : Bytes} (h : Packet.read mode max (f ++ r) = (.err e, r)) :
    FrameErr mode b1.toNat body e := by
  obtain ⟨v, rfl, hv⟩ := hf
  rcases read_err_iff.1 h with ⟨he, -⟩ | ⟨b1', v', body', he, hv', hm, hb⟩
  · have := congrArg List.length he
    simp at this
    omega
  · simp only [List.cons_append, List.append_assoc, List.cons.injEq] at he
    obtain ⟨rfl, he⟩ := he
    obtain ⟨rfl, hn, he⟩ := varintRep_unique hv hv' he
    obtain ⟨rfl, -⟩ := List.append_inj he hn
    exact hb

/-- C25 exactly, for the two packets with subscription identifiers: a foreign identifier `x` after
the properties `ps` is reported exactly if the announced length `plen` of the section is greater
than the length of `ps` by more than the number of subscription identifiers in it. -/
theorem C25_iff (mode : StrMode) (max : Option Nat) (b1 x : UInt8) (ids : List UInt8)
    (pre v ws rest f r : Bytes) (plen : Nat) (ps : List Property)
    (hat : SectionAt mode b1 ids pre) (ht : b1.toNat / 16 = 3 ∨ b1.toNat / 16 = 8)
    (hf : FrameOf b1 (pre ++ (v ++ ws ++ x :: rest)) f)
    (hm : Admits max (pre ++ (v ++ ws ++ x :: rest)).length)
    (hv : VarintRep v plen) (hs : SeqRep PropRep ps ws) (hok : ∀ p ∈ ps, p.Ok mode ids)
    (hx : x ∉ ids) :
    Packet.read mode max (f ++ r) = (.err (.InvalidPropertyType x), r) ↔
      ws.length + subIds ps < plen := by
  refine ⟨fun h => ?_, fun hl =>
    C25_foreign_partial mode max b1 x ids pre v ws rest f r plen ps hat hf hm hv hs hok hl hx⟩
  apply Classical.byContradiction
  intro hl
  obtain ⟨o, w1, w2, rfl, hsec⟩ := reached_propSec hv hs hok (by omega)
  have hbody := frame_err_inv hf h
  cases hat with
  | @publish0 topic ht hq hc =>
    have : Packet.read mode max (f ++ r) = (.ok (.Publish {
        dup := decide (b1.toNat / 8 % 2 = 1), qos := .AtMostOnce, retain := decide (b1.toNat % 2 = 1),
        topic := topic, pkid := 0, payload := w2 ++ x :: rest,
        properties := o.map Spec.PublishProperties.ofList }), r) := by
      refine frame_ok hf hm (show _ = typeNum (.Publish _) from ht) ?_ r
      refine ⟨?_, hq.symm, ?_, by simp, hc, _, v ++ w1, by simp, hsec, rfl⟩
      · unfold bit
        by_cases h : b1.toNat / 8 % 2 = 1 <;> simp [h] <;> omega
      · unfold bit
        by_cases h : b1.toNat % 2 = 1 <;> simp [h] <;> omega
    rw [this] at h
    cases h
  | @publish topic pkid ht hq hc hk =>
    obtain ⟨q, hq0, hq1⟩ : ∃ q, q ≠ .AtMostOnce ∧ qosNum q = b1.toNat / 2 % 4 := by
      rcases hq with hq | hq
      · exact ⟨.AtLeastOnce, by simp, hq.symm⟩
      · exact ⟨.ExactlyOnce, by simp, hq.symm⟩
    have : Packet.read mode max (f ++ r) = (.ok (.Publish {
        dup := decide (b1.toNat / 8 % 2 = 1), qos := q, retain := decide (b1.toNat % 2 = 1),
        topic := topic, pkid := pkid, payload := w2 ++ x :: rest,
        properties := o.map Spec.PublishProperties.ofList }), r) := by
      refine frame_ok hf hm (show _ = typeNum (.Publish _) from ht) ?_ r
      refine ⟨?_, hq1, ?_, by simp [hq0, hk], hc, _, v ++ w1, by simp [hq0], hsec, rfl⟩
      · unfold bit
        by_cases h : b1.toNat / 8 % 2 = 1 <;> simp [h] <;> omega
      · unfold bit
        by_cases h : b1.toNat % 2 = 1 <;> simp [h] <;> omega
    rw [this] at h
    cases h
  | subscribe pkid ht =>
    rcases hbody with ⟨-, he⟩ | ⟨-, -, -, he⟩ | ⟨-, he⟩
    · cases he
    · cases he
    · rw [BodyErr, ht] at he
      rcases he with ⟨-, he⟩ | ⟨a, u, t, he, hu, he'⟩
      · cases he
      · obtain ⟨-, rfl⟩ := List.append_inj he (by rw [hu]; rfl)
        rcases he' with he' | ⟨o', u', t', -, -, he' | ⟨_, _, _, -, -, -, he'⟩⟩
        · obtain ⟨r', he'⟩ := (diag_sec (by decide +kernel) _ _).2 he'
          have := gRead_sec (r := w2 ++ x :: rest).2 ⟨v ++ w1, rfl, hsec⟩
          rw [show v ++ (w1 ++ w2) ++ x :: rest = v ++ w1 ++ (w2 ++ x :: rest) by simp, this] at he'
          cases he'
        · cases he'.2
        · rcases he' with he' | ⟨_, _, _, -, -, ⟨-, he'⟩ | ⟨_, _, _, -, -, ⟨-, he'⟩ | ⟨-, -, he'⟩⟩⟩
          · exact textErr_ne he'
          · cases he'
          · cases he'
          · cases he'
  | connect _ _ h0 => omega
  | will _ _ h0 => omega
  | connAck _ _ h0 => omega
  | pubAck _ _ h0 => omega
  | pubRec _ _ h0 => omega
  | pubRel _ _ h0 => omega
  | pubComp _ _ h0 => omega
  | subAck _ h0 => omega
  | unsubscribe _ h0 => omega
  | unsubAck _ h0 => omega
  | disconnect _ h0 => subst h0; exact absurd ht (by decide)

/-! ### Cases that meet the hypotheses -/

theorem small_id (n : Nat) (h : n < 128) :
    PropRep (.subscriptionIdentifier n) [0x0B, UInt8.ofNat n] := 
  ⟨(show n ≤ 268435455 by omega), _, varintRep_small n h, rfl⟩

/-- Three subscription identifiers: the library stops after the second. -/
theorem stops_three : Stops
    [.subscriptionIdentifier 1, .subscriptionIdentifier 2, .subscriptionIdentifier 3]
    [0x0B, 1, 0x0B, 2, 0x0B, 3] [.subscriptionIdentifier 1, .subscriptionIdentifier 2]
    [0x0B, 1, 0x0B, 2] [0x0B, 3] :=
  stops_of_run (w1 := [0x0B, 1, 0x0B, 2]) (c' := 6) rfl (.cons (small_id 3 (by decide)) .nil)
    (.cons (w := [0x0B, 1]) (by decide) (small_id 1 (by decide))
      (.cons (w := [0x0B, 2]) (by decide) (small_id 2 (by decide)) (.nil 6))) (by decide)

/-- So the third is delivered as the beginning of the payload. -/
example : Packet.read .utf8 none
    ([0x30, 12, 0, 1, 0x74, 6, 0x0B, 1, 0x0B, 2, 0x0B, 3, 0xDE, 0xAD] ++ [0xC0]) =
      (.ok (.Publish {
        dup := false, qos := .AtMostOnce, retain := false, topic := [0x74], pkid := 0,
        payload := [0x0B, 3, 0xDE, 0xAD],
        properties := propsOf Spec.PublishProperties.ofList
          [.subscriptionIdentifier 1, .subscriptionIdentifier 2] }), [0xC0]) :=
  C24_publish_exact .utf8 none 0x30 .AtMostOnce 0 _ _ [0x74] [6] [0x0B, 1, 0x0B, 2, 0x0B, 3] _ _
    [0xDE, 0xAD] _ _
    (frameOf_small (by decide +kernel) (by decide +kernel)) (by decide)
    (by intro m hm; cases hm) (by decide) (by decide) (by decide +kernel)
    (varintRep_small 6 (by decide)) (by decide +kernel) stops_three

/-- `NoLoss` fails there, and holds for two subscription identifiers. -/
example : ¬ NoLoss
    [.subscriptionIdentifier 1, .subscriptionIdentifier 2, .subscriptionIdentifier 3]
    [0x0B, 1, 0x0B, 2, 0x0B, 3] := fun h => by
  have := h [.subscriptionIdentifier 1, .subscriptionIdentifier 2] (.subscriptionIdentifier 3) []
    [0x0B, 1, 0x0B, 2] [0x0B, 3] rfl rfl stops_three.read (.cons (small_id 3 (by decide)) .nil)
  exact absurd this (by decide)

theorem noLoss_two : SeqRep PropRep [.subscriptionIdentifier 1, .subscriptionIdentifier 2]
      [0x0B, 1, 0x0B, 2] ∧
    NoLoss [.subscriptionIdentifier 1, .subscriptionIdentifier 2] [0x0B, 1, 0x0B, 2] := by
  have hs : SeqRep PropRep [.subscriptionIdentifier 1, .subscriptionIdentifier 2]
      [0x0B, 1, 0x0B, 2] := stops_three.read
  exact ⟨hs, (C26_no_loss_iff _ _ hs).1 (stops_of_run (w1 := [0x0B, 1, 0x0B, 2]) (w2 := [])
    (c' := 6) (by simp) .nil (.cons (w := [0x0B, 1]) (by decide) (small_id 1 (by decide))
      (.cons (w := [0x0B, 2]) (by decide) (small_id 2 (by decide)) (.nil 6))) (by decide))⟩

/-- With two, the payload is the one that was sent. -/
example : ∃ p : Publish, Packet.read .utf8 none
    ([0x30, 10, 0, 1, 0x74, 4, 0x0B, 1, 0x0B, 2, 0xDE, 0xAD] ++ [0xC0]) = (.ok (.Publish p), [0xC0]) ∧
      p.payload = [0xDE, 0xAD] :=
  (C39_iff .utf8 none 0x30 .AtMostOnce 0 _ [0x74] [4] [0x0B, 1, 0x0B, 2] [0xDE, 0xAD] _ _
    (frameOf_small (by decide +kernel) (by decide +kernel)) (by decide)
    (by intro m hm; cases hm) (by decide) (by decide) (by decide +kernel)
    (varintRep_small 4 (by decide)) noLoss_two.1 (by decide +kernel)).2 noLoss_two.2

/-- A SUBSCRIBE that meets the hypotheses of `C24_subscribe_iff` and is delivered as sent. -/
example : Packet.read .utf8 none
    ([0x82, 11, 0, 7, 4, 0x0B, 1, 0x0B, 2, 0, 1, 0x61, 1] ++ [0xC0]) =
      (.ok (.Subscribe {
        pkid := 7,
        filters := [{
          path := [0x61], qos := .AtLeastOnce, nolocal := false, preserve_retain := false,
          retain_forward_rule := .OnEverySubscribe }],
        properties := propsOf Spec.SubscribeProperties.ofList
          [.subscriptionIdentifier 1, .subscriptionIdentifier 2] }), [0xC0]) :=
  (C24_subscribe_iff .utf8 none 0x82 7 _ [4] [0x0B, 1, 0x0B, 2] [0, 1, 0x61, 1] _ _ _
    (frameOf_small (by decide +kernel) (by decide +kernel)) (by decide)
    (by intro m hm; cases hm) (varintRep_small 4 (by decide)) noLoss_two.1 (by decide +kernel)
    (by simp) (.cons (w := [0, 1, 0x61, 1]) ⟨by decide +kernel, 1, by decide +kernel, rfl⟩ .nil)).2 noLoss_two.2

/-- A foreign identifier after two subscription identifiers is not reported if the section is
said to end one byte behind it. -/
example : Packet.read .utf8 none
    ([0x30, 9, 0, 1, 0x74, 5, 0x0B, 1, 0x0B, 2, 0xFF] ++ [0xC0]) ≠
      (.err (.InvalidPropertyType 0xFF), [0xC0]) := by
  rw [Ne, C25_iff .utf8 none 0x30 0xFF _ (str [0x74]) [5] [0x0B, 1, 0x0B, 2] [] _ _ 5
    [.subscriptionIdentifier 1, .subscriptionIdentifier 2]
    (.publish0 (by decide) (by decide) (by decide +kernel)) (.inl (by decide))
    (frameOf_small (by decide +kernel) (by decide +kernel)) (by intro m hm; cases hm)
    (varintRep_small 5 (by decide)) noLoss_two.1 (by decide +kernel) (by decide)]
  decide

end Props
