import Verif.Spec.Respond
import Verif.Props.Deliver
import Verif.Props.Reply
/-
C77: responses to requests.
-/
namespace Props

open Mqtt Spec

theorem encProps_cons (a : Property) (l : List Property) :
    (encProps (a :: l)).length = (encProps [a]).length + (encProps l).length := by
  rw [← List.singleton_append, encProps_append_length]

theorem encProps_one_le {z : Property} {l : List Property} (hz : z ∈ l) :
    (encProps [z]).length ≤ (encProps l).length := by
  obtain ⟨l1, l2, rfl⟩ := List.append_of_mem hz
  rw [encProps_append_length, encProps_cons z l2]
  omega

theorem encProps_two_le {x y : Property} {l : List Property} (hx : x ∈ l) (hy : y ∈ l)
    (hxy : x ≠ y) : (encProps [x]).length + (encProps [y]).length ≤ (encProps l).length := by
  induction l with
  | nil => cases hx
  | cons a l ih =>
    rw [encProps_cons a l]
    cases hx with
    | head =>
      cases hy with
      | head => exact absurd rfl hxy
      | tail _ hy => have := encProps_one_le hy; omega
    | tail _ hx =>
      cases hy with
      | head => have := encProps_one_le hx; omega
      | tail _ hy => have := ih hx hy; omega

theorem response_topic_mem {q : PublishProperties} {t : Bytes} (h : q.response_topic = some t) :
    Property.responseTopic t ∈ Spec.PublishProperties.toList q := by
  simp [Spec.PublishProperties.toList, one, h]

theorem correlation_mem {q : PublishProperties} {c : Bytes} (h : q.correlation_data = some c) :
    Property.correlationData c ∈ Spec.PublishProperties.toList q := by
  simp [Spec.PublishProperties.toList, one, h]

theorem response_list {q : PublishProperties} {t : Bytes} {qos : QoS} {id : UInt16} {x : Bytes} :
    optList Spec.PublishProperties.toList (response q t qos id x).properties =
      one .correlationData q.correlation_data := by
  cases h : q.correlation_data <;>
    simp [response, h, optList, Spec.PublishProperties.toList, one, users]

theorem response_facts {mode : StrMode} {n : Nat} {p : Publish} {q : PublishProperties} {t : Bytes}
    {qos : QoS} {id : UInt16} {x : Bytes} (hf : Facts mode n (.Publish p))
    (hq : p.properties = some q) (ht : q.response_topic = some t)
    (hid : qos = .AtMostOnce ↔ id = 0) (hn : n + 3 + x.length ≤ 268435455) :
    Encodable (.Publish (response q t qos id x)) ∧
    StringsOk mode (.Publish (response q t qos id x)) ∧
    Readable (.Publish (response q t qos id x)) ∧
    norm (.Publish (response q t qos id x)) = .Publish (response q t qos id x) ∧
    (body (.Publish (response q t qos id x))).length ≤ n + 3 + x.length := by
  have hp : props (.Publish p) = Spec.PublishProperties.toList q := by simp [props, hq, optList]
  have hm := response_topic_mem ht
  have hfit := hf.fits _ (hp ▸ hm)
  have htxt := hf.strings.2 _ (hp ▸ hm)
  have hc : ∀ y ∈ optList Spec.PublishProperties.toList (response q t qos id x).properties,
      y ∈ Spec.PublishProperties.toList q ∧ ∃ c, y = .correlationData c := by
    intro y hy
    rw [response_list] at hy
    cases hcd : q.correlation_data with
    | none => simp [hcd, one] at hy
    | some c =>
      simp only [hcd, one, Option.toList_some, List.map_cons, List.map_nil, List.mem_singleton] at hy
      subst hy
      exact ⟨correlation_mem hcd, c, rfl⟩
  have hs : ∀ y : Bytes, (str y).length = 2 + y.length := by intro y; simp [str, u16]; omega
  have hu : ∀ y : UInt16, (u16 y).length = 2 := by intro y; simp [u16]
  have hlen : (body (.Publish (response q t qos id x))).length ≤ n + 3 + x.length := by
    have h1 := hf.len
    have e1 : body (.Publish p) = str p.topic ++ (if p.qos = .AtMostOnce then [] else u16 p.pkid) ++
        propSection (Spec.PublishProperties.toList q) ++ p.payload := by
      simp [body, hq, optSection]
    have hsec : ∀ o, optSection Spec.PublishProperties.toList o =
        propSection (optList Spec.PublishProperties.toList o) := by intro o; cases o <;> rfl
    have e2 : body (.Publish (response q t qos id x)) =
        str t ++ (if qos = .AtMostOnce then [] else u16 id) ++
          propSection (one .correlationData q.correlation_data) ++ x := by
      rw [← response_list (t := t) (qos := qos) (id := id) (x := x), ← hsec]; rfl
    rw [e1] at h1
    rw [e2]
    have hid2 : (if qos = .AtMostOnce then ([] : Bytes) else u16 id).length ≤ 2 := by
      by_cases hq : qos = .AtMostOnce
      · rw [if_pos hq]; simp
      · rw [if_neg hq, hu]; omega
    have e3 : (encProps [Property.responseTopic t]).length = 3 + t.length := by
      simp [encProps, Property.enc, Property.id, Property.value, hs]; omega
    have e4 : (encProps (one .correlationData q.correlation_data)).length + (3 + t.length) ≤
        (encProps (Spec.PublishProperties.toList q)).length := by
      cases hcd : q.correlation_data with
      | none =>
        have := encProps_one_le hm
        rw [e3] at this
        simpa [one, encProps] using this
      | some c =>
        have := encProps_two_le (correlation_mem hcd) hm (by simp)
        rw [e3] at this
        simpa [one] using this
    have e5 := varint_length_mono (m := (encProps (one .correlationData q.correlation_data)).length)
      (n := (encProps (Spec.PublishProperties.toList q)).length) (by omega)
    simp only [propSection, List.length_append, hs] at h1 ⊢
    omega
  refine ⟨⟨?_, fun y hy => hf.fits y (hp ▸ (hc y hy).1), by unfold maxVarint; omega, ?_⟩,
    ⟨?_, fun y hy => hf.strings.2 y (hp ▸ (hc y hy).1)⟩, ?_, ?_, hlen⟩
  · simpa [fields, texts, response, Property.Fits] using hfit
  · intro h0 h1
    exact h0 (hid.2 h1)
  · simpa [texts, response, Property.TextsOk, Property.texts] using htxt
  · refine driftSafe_of_le_one (fun y hy => hf.fits y (hp ▸ (hc y hy).1)) ?_
    rw [response_list]
    refine Nat.le_trans (List.length_filterMap_le ..) ?_
    cases q.correlation_data <;> simp [one]
  · have e1 : normProps Spec.PublishProperties.toList (response q t qos id x).properties =
        (response q t qos id x).properties := by
      cases h : q.correlation_data <;>
        simp [response, h, normProps, Spec.PublishProperties.toList, one, users, Option.filter]
    have e2 : (if qos = .AtMostOnce then (0 : UInt16) else id) = id := by
      by_cases h : qos = .AtMostOnce
      · rw [if_pos h, hid.1 h]
      · rw [if_neg h]
    show Packet.Publish { response q t qos id x with
      pkid := if qos = .AtMostOnce then (0 : UInt16) else id
      properties := normProps Spec.PublishProperties.toList (response q t qos id x).properties } = _
    rw [e1, e2]
    rfl

/-- C77: every request that was read under a limit `m` can be answered: the response, published to
its response topic with its correlation data, is written behind anything; its remaining length is at
most that of its payload and `m` and 3 more; and every receiver whose limit admits it reads exactly
it, whatever follows. -/
theorem C77_response (mode : StrMode) (m : Nat) (b r : Bytes) (p : Publish) (q : PublishProperties)
    (t : Bytes) (h : Packet.read mode (some m) b = (.ok (.Publish p), r))
    (hq : p.properties = some q) (ht : q.response_topic = some t) (qos : QoS) (id : UInt16)
    (hid : qos = .AtMostOnce ↔ id = 0) (x : Bytes) (hx : m + 3 + x.length ≤ 268435455)
    (buf : Bytes) :
    ∃ w n, (Packet.Publish (response q t qos id x)).write buf = (.ok w.length, buf ++ w) ∧
      RemLen w n ∧ n ≤ m + 3 + x.length ∧
      ∀ max r', Admits max n →
        Packet.read mode max (w ++ r') = (.ok (.Publish (response q t qos id x)), r') := by
  obtain ⟨k, hk, hf, -⟩ := read_limit_facts h
  obtain ⟨h1, h2, h3, h4, h5⟩ := response_facts (qos := qos) (id := id) (x := x) hf hq ht hid
    (by omega)
  refine ⟨_, _, write_encode h1 trivial (by simp [IsConnect]),
    ⟨_, _, body (.Publish (response q t qos id x)), rfl, varint_rep h1.2.2.1, rfl⟩, by omega, ?_⟩
  intro max r' ha
  have := read_encode h1 h2 h3 ha r'
  rwa [h4] at this

/-- A request with response topic "r" and correlation data, and its response. -/
example : ∃ p q, Packet.read .utf8 (some 20)
      [0x30, 13, 0, 1, 0x74, 9, 0x08, 0, 1, 0x72, 0x09, 0, 2, 7, 8] = (.ok (.Publish p), []) ∧
    p.properties = some q ∧ q.response_topic = some [0x72] ∧
    (Packet.Publish (response q [0x72] .AtMostOnce 0 [1])).write [] =
      (.ok 12, [0x30, 10, 0, 1, 0x72, 5, 0x09, 0, 2, 7, 8, 1]) := by
  refine ⟨{
    dup := false, qos := .AtMostOnce, retain := false, topic := [0x74], pkid := 0, payload := []
    properties := some {
      payload_format_indicator := none, message_expiry_interval := none, topic_alias := none
      response_topic := some [0x72], correlation_data := some [7, 8], user_properties := []
      subscription_identifiers := [], content_type := none } }, _, by decide +kernel, rfl, rfl,
    by decide +kernel⟩

end Props
