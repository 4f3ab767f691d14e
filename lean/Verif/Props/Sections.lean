import Verif.Proofs.SectionErr
import Verif.Props.Properties
/-
C25, C26, C39: foreign properties, and the extent of the property section.
-/
namespace Props

open Mqtt Spec

/-- For the examples: properties as the library writes them. -/
theorem seqRep_small {ws : Bytes} (ps : List Property) (h : ∀ p ∈ ps, p.Fits)
    (hs : ws = encProps ps) : SeqRep PropRep ps ws := hs ▸ seqRep_enc h

/-- C25 (partial): in each of the 13 property sections, behind any sequence `ps` of allowed
properties, an identifier `x` that is not allowed there (unknown, or known but foreign to the
packet) is refused with an error that carries it. The position must be inside the announced length
by the library's count, which takes each subscription identifier (in PUBLISH and SUBSCRIBE) for
one byte too long. -/
theorem C25_foreign_partial (mode : StrMode) (max : Option Nat) (b1 x : UInt8) (ids : List UInt8)
    (pre v ws rest f r : Bytes) (plen : Nat) (ps : List Property)
    (hat : SectionAt mode b1 ids pre)
    (hf : FrameOf b1 (pre ++ (v ++ ws ++ x :: rest)) f)
    (hm : Admits max (pre ++ (v ++ ws ++ x :: rest)).length)
    (hv : VarintRep v plen) (hs : SeqRep PropRep ps ws) (hok : ∀ p ∈ ps, p.Ok mode ids)
    (hl : ws.length + subIds ps < plen) (hx : x ∉ ids) :
    Packet.read mode max (f ++ r) = (.err (.InvalidPropertyType x), r) :=
  section_err hat hf hm (by simp) (gRead_foreign hv hs hok hl hx) r

/-- C25 for the sections without subscription identifiers, that is all but those of PUBLISH and
SUBSCRIBE: every position inside the announced length. -/
theorem C25_foreign (mode : StrMode) (max : Option Nat) (b1 x : UInt8) (ids : List UInt8)
    (pre v ws rest f r : Bytes) (plen : Nat) (ps : List Property)
    (hat : SectionAt mode b1 ids pre) (hids : ¬ (b1.toNat / 16 = 3 ∨ b1.toNat / 16 = 8))
    (hf : FrameOf b1 (pre ++ (v ++ ws ++ x :: rest)) f)
    (hm : Admits max (pre ++ (v ++ ws ++ x :: rest)).length)
    (hv : VarintRep v plen) (hs : SeqRep PropRep ps ws) (hok : ∀ p ∈ ps, p.Ok mode ids)
    (hl : ws.length < plen) (hx : x ∉ ids) :
    Packet.read mode max (f ++ r) = (.err (.InvalidPropertyType x), r) := by
  have h0 : (0x0B : UInt8) ∉ ids := by
    cases hat <;> first | decide | (exfalso; omega)
  refine C25_foreign_partial mode max b1 x ids pre v ws rest f r plen ps hat hf hm hv hs hok ?_ hx
  rw [subIds_none h0 hok]; exact hl

/-- The exception is real: in this PUBLISH the section of 5 bytes ends with the unknown identifier
0xFF; it is accepted, and 0xFF becomes the payload. -/
theorem C25_publish_exception :
    SectionAt .utf8 0x30 Spec.PublishProperties.allowed (str [0x74]) ∧
    (0xFF : UInt8) ∉ Spec.PublishProperties.allowed ∧
    Packet.read .utf8 none [0x30, 9, 0, 1, 0x74, 5, 0x0B, 1, 0x0B, 2, 0xFF] =
      (.ok (.Publish {
        dup := false, qos := .AtMostOnce, retain := false, topic := [0x74], pkid := 0,
        payload := [0xFF],
        properties := some {
          payload_format_indicator := none, message_expiry_interval := none, topic_alias := none,
          response_topic := none, correlation_data := none, user_properties := [],
          subscription_identifiers := [1, 2], content_type := none } }), []) :=
  ⟨.publish0 (by decide) (by decide) (by decide +kernel), by decide, by decide +kernel⟩

/-- A topic alias (0x23) in a CONNECT behind a receive maximum. -/
example : Packet.read .utf8 none
    ([0x10, 20, 0, 4, 0x4D, 0x51, 0x54, 0x54, 5, 0, 0, 10, 6, 0x21, 0, 1, 0x23, 0, 1, 0, 1, 0x63]
      ++ [0xC0]) = (.err (.InvalidPropertyType 0x23), [0xC0]) :=
  C25_foreign .utf8 none 0x10 0x23 Spec.ConnectProperties.allowed _ [6] [0x21, 0, 1]
    [0, 1, 0, 1, 0x63] _ _ 6 [.receiveMaximum 1] (.connect 0 10 (by decide)) (by decide)
    (frameOf_small (by decide +kernel) (by decide +kernel)) (by intro m hm; cases hm)
    (varintRep_small 6 (by decide)) (seqRep_enc (ps := [.receiveMaximum 1]) (by decide))
    (by decide +kernel) (by decide) (by decide)

/-- The same in the will of a CONNECT, and in a PUBLISH behind a subscription identifier. -/
example : Packet.read .utf8 none
    ([0x10, 20, 0, 4, 0x4D, 0x51, 0x54, 0x54, 5, 4, 0, 10, 0, 0, 1, 0x63, 3, 0x23, 0, 1, 0, 0]
      ++ [0xC0]) = (.err (.InvalidPropertyType 0x23), [0xC0]) :=
  C25_foreign .utf8 none 0x10 0x23 Spec.LastWillProperties.allowed _ [3] []
    [0, 1, 0, 0] _ _ 3 [] (.will 4 10 (ps := []) (s := [0]) (clientId := [0x63]) (by decide)
    (by decide) (sectionRep_enc _ (by decide) (by decide) (by decide +kernel)) (by decide)
    (by decide +kernel)) (by decide)
    (frameOf_small (by decide +kernel) (by decide +kernel)) (by intro m hm; cases hm)
    (varintRep_small 3 (by decide)) .nil (by decide +kernel) (by decide) (by decide)

example : Packet.read .utf8 none
    ([0x32, 12, 0, 1, 0x74, 0, 7, 4, 0x0B, 1, 0x21, 0, 1, 0xAA] ++ [0xC0]) =
      (.err (.InvalidPropertyType 0x21), [0xC0]) :=
  C25_foreign_partial .utf8 none 0x32 0x21 Spec.PublishProperties.allowed _ [4] [0x0B, 1]
    [0, 1, 0xAA] _ _ 4 [.subscriptionIdentifier 1] (.publish (topic := [0x74]) (pkid := 7)
    (by decide) (by decide) (by decide +kernel) (by decide))
    (frameOf_small (by decide +kernel) (by decide +kernel)) (by intro m hm; cases hm)
    (varintRep_small 4 (by decide)) (seqRep_small [.subscriptionIdentifier 1] (by decide) (by decide +kernel))
    (by decide +kernel) (by decide) (by decide)

/-! ### C26 -/

/-- What a section reader consumes when it succeeds: the announced length `plen`, then allowed
properties `ps` on the bytes `ws`, which are returned. The announced length is reached, and the
last property starts before it, both by the library's count. -/
def Confined {α : Type} (mode : StrMode) (ids : List UInt8) (ofList : List Property → α)
    (read : M (Option α)) : Prop :=
  ∀ b o r, read b = (.ok o, r) → ∃ v plen ps ws,
    b = v ++ ws ++ r ∧ VarintRep v plen ∧ SeqRep PropRep ps ws ∧ (∀ p ∈ ps, p.Ok mode ids) ∧
    o = propsOf ofList ps ∧ plen ≤ ws.length + subIds ps ∧
    ∀ init lst w1 w2, ps = init ++ [lst] → ws = w1 ++ w2 → SeqRep PropRep init w1 →
      PropRep lst w2 → w1.length + subIds init < plen

/-- A section reader takes exactly the announced bytes of a well-formed section, whatever comes
behind it. -/
def TakesSection {α : Type} (mode : StrMode) (ids : List UInt8) (ofList : List Property → α)
    (read : M (Option α)) : Prop :=
  ∀ ps s r, Sec mode ids ps s → read (s ++ r) = (.ok (propsOf ofList ps), r)

/-- The same unless the miscount of subscription identifiers takes effect. -/
def TakesSectionSafe {α : Type} (mode : StrMode) (ids : List UInt8) (ofList : List Property → α)
    (read : M (Option α)) : Prop :=
  ∀ ps s r, Sec mode ids ps s → DriftSafe ps → read (s ++ r) = (.ok (propsOf ofList ps), r)

theorem run_seq {plen c c' : Nat} {ps : List Property} {ws : Bytes} (h : Run plen c ps ws c') :
    SeqRep PropRep ps ws ∧ c' = c + ws.length + subIds ps := by
  induction h with
  | nil c => exact ⟨.nil, by simp [subIds, all]⟩
  | @cons c c' p w ps ws hc hp _ ih =>
    refine ⟨.cons hp ih.1, ?_⟩
    rw [ih.2, subIds_cons, List.length_append]; omega

theorem run_last {plen c c' : Nat} {ps : List Property} {ws : Bytes} (h : Run plen c ps ws c') :
    ∀ init lst w1 w2, ps = init ++ [lst] → ws = w1 ++ w2 → SeqRep PropRep init w1 →
      PropRep lst w2 → c + w1.length + subIds init < plen := by
  induction h with
  | nil c => intro init lst w1 w2 h; simp at h
  | @cons c c' p w ps ws hc hp hr ih =>
    intro init lst w1 w2 he hw h1 h2
    cases init with
    | nil =>
      cases h1
      simpa [subIds, all] using hc
    | cons q init =>
      simp only [List.cons_append, List.cons.injEq] at he
      obtain ⟨rfl, rfl⟩ := he
      cases h1 with
      | @cons _ w' _ ws' hq hrest =>
        rw [List.append_assoc] at hw
        obtain ⟨-, rfl, hw'⟩ := propRep_unique hp hq hw
        have := ih init lst ws' w2 rfl hw' hrest h2
        rw [subIds_cons, List.length_append]; omega

theorem confined {α : Type} {mode : StrMode} {ids : List UInt8} {ofList : List Property → α}
    {read : M (Option α)} (hr : read = gRead mode ids >>= fun o => pure (o.map ofList)) :
    Confined mode ids ofList read := by
  intro b o r h
  rw [hr, M.bind_eq_ok] at h
  obtain ⟨o', b1, h1, h2⟩ := h
  obtain ⟨rfl, rfl⟩ := pure_ok.1 h2
  rcases gRead_ok.1 h1 with ⟨rfl, v, hv, rfl⟩ | ⟨ps, v, plen, ws, c', rfl, hv, hpos, rfl, hrun, hle, hok⟩
  · exact ⟨v, 0, [], [], by simp, hv, .nil, by simp, by simp [propsOf], by simp, by simp⟩
  · obtain ⟨h3, h4⟩ := run_seq hrun
    refine ⟨v, plen, ps, ws, by simp, hv, h3, hok, ?_, by omega, fun i l w1 w2 a1 a2 a3 a4 => by
      have := run_last hrun i l w1 w2 a1 a2 a3 a4; omega⟩
    cases ps with
    | nil =>
      cases h3
      simp [subIds, all] at h4
      omega
    | cons p ps => simp [propsOf]

theorem takesSafe {α : Type} {mode : StrMode} {ids : List UInt8} {ofList : List Property → α}
    {read : M (Option α)} (hr : read = gRead mode ids >>= fun o => pure (o.map ofList)) :
    TakesSectionSafe mode ids ofList read := by
  intro ps s r hs hd
  rw [← propsOf_map]
  exact (props_ok hr).2 ⟨_, s, rfl, propSec_of_section hs.1 hs.2 hd, rfl⟩

theorem takes {α : Type} {mode : StrMode} {ids : List UInt8} {ofList : List Property → α}
    {read : M (Option α)} (hr : read = gRead mode ids >>= fun o => pure (o.map ofList))
    (h0 : (0x0B : UInt8) ∉ ids) : TakesSection mode ids ofList read := by
  intro ps s r hs
  exact takesSafe hr ps s r hs (driftSafe_zero (section_fits hs.1) (subIds_none h0 hs.2))

/-- C26 (partial): what each of the 13 section readers of the API consumes when it succeeds. Two
things are missing from the full claim: the last property may reach beyond the announced length,
and the announced length is compared with a count that is too high by one for each subscription
identifier. -/
theorem C26_consumed_partial (mode : StrMode) :
    Confined mode Spec.ConnectProperties.allowed Spec.ConnectProperties.ofList (ConnectProperties.read mode) ∧
    Confined mode Spec.LastWillProperties.allowed Spec.LastWillProperties.ofList (LastWillProperties.read mode) ∧
    Confined mode Spec.ConnAckProperties.allowed Spec.ConnAckProperties.ofList (ConnAckProperties.read mode) ∧
    Confined mode Spec.PublishProperties.allowed Spec.PublishProperties.ofList (PublishProperties.read mode) ∧
    Confined mode Spec.PubAckProperties.allowed Spec.PubAckProperties.ofList (PubAckProperties.read mode) ∧
    Confined mode Spec.PubRecProperties.allowed Spec.PubRecProperties.ofList (PubRecProperties.read mode) ∧
    Confined mode Spec.PubRelProperties.allowed Spec.PubRelProperties.ofList (PubRelProperties.read mode) ∧
    Confined mode Spec.PubCompProperties.allowed Spec.PubCompProperties.ofList (PubCompProperties.read mode) ∧
    Confined mode Spec.SubscribeProperties.allowed Spec.SubscribeProperties.ofList (SubscribeProperties.read mode) ∧
    Confined mode Spec.SubAckProperties.allowed Spec.SubAckProperties.ofList (SubAckProperties.read mode) ∧
    Confined mode Spec.UnsubscribeProperties.allowed Spec.UnsubscribeProperties.ofList (UnsubscribeProperties.read mode) ∧
    Confined mode Spec.UnsubAckProperties.allowed Spec.UnsubAckProperties.ofList (UnsubAckProperties.read mode) ∧
    Confined mode Spec.DisconnectProperties.allowed Spec.DisconnectProperties.ofList (DisconnectProperties.extract mode) :=
  ⟨confined (ConnectProperties.read_eq mode), confined (LastWillProperties.read_eq mode), confined (ConnAckProperties.read_eq mode), confined (PublishProperties.read_eq mode), confined (PubAckProperties.read_eq mode), confined (PubRecProperties.read_eq mode), confined (PubRelProperties.read_eq mode), confined (PubCompProperties.read_eq mode), confined (SubscribeProperties.read_eq mode), confined (SubAckProperties.read_eq mode), confined (UnsubscribeProperties.read_eq mode), confined (UnsubAckProperties.read_eq mode), confined (DisconnectProperties.read_eq mode)⟩

/-- C26 (partial): a well-formed section is consumed exactly, in all 13 sections; in PUBLISH and
SUBSCRIBE unless the miscount takes effect. -/
theorem C26_exact_partial (mode : StrMode) :
    TakesSection mode Spec.ConnectProperties.allowed Spec.ConnectProperties.ofList (ConnectProperties.read mode) ∧
    TakesSection mode Spec.LastWillProperties.allowed Spec.LastWillProperties.ofList (LastWillProperties.read mode) ∧
    TakesSection mode Spec.ConnAckProperties.allowed Spec.ConnAckProperties.ofList (ConnAckProperties.read mode) ∧
    TakesSectionSafe mode Spec.PublishProperties.allowed Spec.PublishProperties.ofList (PublishProperties.read mode) ∧
    TakesSection mode Spec.PubAckProperties.allowed Spec.PubAckProperties.ofList (PubAckProperties.read mode) ∧
    TakesSection mode Spec.PubRecProperties.allowed Spec.PubRecProperties.ofList (PubRecProperties.read mode) ∧
    TakesSection mode Spec.PubRelProperties.allowed Spec.PubRelProperties.ofList (PubRelProperties.read mode) ∧
    TakesSection mode Spec.PubCompProperties.allowed Spec.PubCompProperties.ofList (PubCompProperties.read mode) ∧
    TakesSectionSafe mode Spec.SubscribeProperties.allowed Spec.SubscribeProperties.ofList (SubscribeProperties.read mode) ∧
    TakesSection mode Spec.SubAckProperties.allowed Spec.SubAckProperties.ofList (SubAckProperties.read mode) ∧
    TakesSection mode Spec.UnsubscribeProperties.allowed Spec.UnsubscribeProperties.ofList (UnsubscribeProperties.read mode) ∧
    TakesSection mode Spec.UnsubAckProperties.allowed Spec.UnsubAckProperties.ofList (UnsubAckProperties.read mode) ∧
    TakesSection mode Spec.DisconnectProperties.allowed Spec.DisconnectProperties.ofList (DisconnectProperties.extract mode) :=
  ⟨takes (ConnectProperties.read_eq mode) (by decide), takes (LastWillProperties.read_eq mode) (by decide), takes (ConnAckProperties.read_eq mode) (by decide), takesSafe (PublishProperties.read_eq mode), takes (PubAckProperties.read_eq mode) (by decide), takes (PubRecProperties.read_eq mode) (by decide), takes (PubRelProperties.read_eq mode) (by decide), takes (PubCompProperties.read_eq mode) (by decide), takesSafe (SubscribeProperties.read_eq mode), takes (SubAckProperties.read_eq mode) (by decide), takes (UnsubscribeProperties.read_eq mode) (by decide), takes (UnsubAckProperties.read_eq mode) (by decide), takes (DisconnectProperties.read_eq mode) (by decide)⟩

/-- Full C26 fails, first reason: a PUBLISH announces a section of 1 byte; the library reads two
bytes as the property "payload format indicator = 0xAA", so that a byte behind the section is read
as a property and missing from the payload. -/
theorem C26_overrun_exception :
    Packet.read .utf8 none [0x30, 7, 0, 1, 0x74, 1, 0x01, 0xAA, 0xBB] =
      (.ok (.Publish {
        dup := false, qos := .AtMostOnce, retain := false, topic := [0x74], pkid := 0,
        payload := [0xBB],
        properties := some {
          payload_format_indicator := some 0xAA, message_expiry_interval := none,
          topic_alias := none, response_topic := none, correlation_data := none,
          user_properties := [], subscription_identifiers := [], content_type := none } }), []) := by
  decide +kernel

/-- Full C26 fails, second reason: the reader of PUBLISH properties leaves the third subscription
identifier of a well-formed section unread (see also `C24_publish_exception`). -/
theorem C26_leak_exception :
    PublishProperties.read .utf8 [6, 0x0B, 1, 0x0B, 2, 0x0B, 3] =
      (.ok (some {
          payload_format_indicator := none, message_expiry_interval := none,
          topic_alias := none, response_topic := none, correlation_data := none,
          user_properties := [], subscription_identifiers := [1, 2], content_type := none }),
        [0x0B, 3]) := by
  decide +kernel

/-- A reader call that meets the hypothesis of `Confined`, with an overrun. -/
example : PubAckProperties.read .utf8 [3, 0x1F, 0, 1, 0x72, 0xFF] =
    (.ok (some { reason_string := some [0x72], user_properties := [] }), [0xFF]) := by
  decide +kernel

/-- A section that meets the hypothesis of `TakesSection`. -/
example : Sec .utf8 Spec.PubAckProperties.allowed
    [.userProperty [0x61] [0x62], .reasonString [0x63]]
    [11, 0x26, 0, 1, 0x61, 0, 1, 0x62, 0x1F, 0, 1, 0x63] :=
  ⟨sectionRep_enc _ (by decide) (by decide +kernel) (by decide +kernel), by decide +kernel⟩

/-! ### C39 -/

/-- C39 (partial): the payload of a decoded PUBLISH is what is left of the frame behind topic,
packet identifier (QoS above 0) and the section as the library reads it (see C26); no byte of it is
changed. -/
theorem C39_payload_partial (mode : StrMode) (max : Option Nat) (b1 : UInt8) (body f r r' : Bytes)
    (p : Publish) (hf : FrameOf b1 body f)
    (h : Packet.read mode max (f ++ r) = (.ok (.Publish p), r')) :
    r' = r ∧ ∃ v plen ps ws,
      body = str p.topic ++ (if p.qos = .AtMostOnce then [] else u16 p.pkid) ++ v ++ ws ++ p.payload ∧
      VarintRep v plen ∧ SeqRep PropRep ps ws ∧
      (∀ q ∈ ps, q.Ok mode Spec.PublishProperties.allowed) ∧
      p.properties = propsOf Spec.PublishProperties.ofList ps ∧ plen ≤ ws.length + subIds ps ∧
      ∀ init lst w1 w2, ps = init ++ [lst] → ws = w1 ++ w2 → SeqRep PropRep init w1 →
        PropRep lst w2 → w1.length + subIds init < plen := by
  obtain ⟨rfl, -, -, hb⟩ := frame_ok_inv hf h
  obtain ⟨-, -, -, -, -, ps, s, rfl, hs, ho⟩ := hb
  refine ⟨rfl, ?_⟩
  have := confined (PublishProperties.read_eq mode) (s ++ p.payload) p.properties p.payload
    ((props_ok (PublishProperties.read_eq mode)).2 ⟨ps, s, rfl, hs, ho⟩)
  obtain ⟨v, plen, qs, ws, h1, h2⟩ := this
  refine ⟨v, plen, qs, ws, ?_, h2⟩
  rw [List.append_assoc, h1]
  simp

/-- C39 for frames with a well-formed section in which the miscount does not take effect: the
payload is what follows the section. -/
theorem C39_exact_partial (mode : StrMode) (max : Option Nat) (b1 : UInt8) (qos : QoS)
    (pkid : UInt16) (ps : List Property) (topic s payload f r : Bytes)
    (hf : FrameOf b1 (str topic ++ (if qos = .AtMostOnce then [] else u16 pkid) ++ s ++ payload) f)
    (ht : b1.toNat / 16 = 3)
    (hm : Admits max
      (str topic ++ (if qos = .AtMostOnce then [] else u16 pkid) ++ s ++ payload).length)
    (hq : qosNum qos = b1.toNat / 2 % 4) (hp : pkid = 0 ↔ qos = .AtMostOnce)
    (hc : TextField mode topic) (hs : Sec mode Spec.PublishProperties.allowed ps s)
    (hd : DriftSafe ps) :
    ∃ p : Publish, Packet.read mode max (f ++ r) = (.ok (.Publish p), r) ∧ p.payload = payload :=
  ⟨_, C24_publish_partial mode max b1 qos pkid ps topic s payload f r hf ht hm hq hp hc hs hd, rfl⟩

/-- The exception is real: a well-formed PUBLISH with three subscription identifiers and empty
payload is delivered with a payload of two bytes. -/
theorem C39_exception :
    (∃ p : Publish, Packet.read .utf8 none [0x30, 10, 0, 1, 0x74, 6, 0x0B, 1, 0x0B, 2, 0x0B, 3] =
      (.ok (.Publish p), []) ∧ p.payload = [0x0B, 3]) :=
  ⟨_, C24_publish_exception.2, rfl⟩

/-- A decoded PUBLISH with a payload of three bytes. -/
example : ∃ p : Publish, Packet.read .utf8 none
    ([0x30, 9, 0, 1, 0x74, 2, 0x0B, 1, 0xDE, 0xAD, 0xBE] ++ [0x30]) = (.ok (.Publish p), [0x30]) ∧
      p.payload = [0xDE, 0xAD, 0xBE] := by
  refine C39_exact_partial .utf8 none 0x30 .AtMostOnce 0 [.subscriptionIdentifier 1] [0x74]
    [2, 0x0B, 1] _ _ _ (frameOf_small (by decide +kernel) (by decide +kernel)) (by decide)
    (by intro m hm; cases hm) (by decide) (by decide) (by decide +kernel)
    ⟨sectionRep_enc _ (by decide) (by decide +kernel) (by decide +kernel), by decide +kernel⟩
    (C24_driftSafe _ [2, 0x0B, 1] (sectionRep_enc _ (by decide) (by decide +kernel)
      (by decide +kernel)) (by decide))

end Props
