import Verif.Spec.Deliver
import Verif.Props.Relay
import Verif.Props.RoundTrip
/-
C70: what a broker delivers to its subscribers.
-/
namespace Props

open Mqtt Spec

theorem encProps_append_length (a b : List Property) :
    (encProps (a ++ b)).length = (encProps a).length + (encProps b).length := by
  simp [encProps]

theorem encProps_ids_length {ids : List Nat} (h : ∀ i ∈ ids, i ≤ 268435455) :
    (encProps (ids.map .subscriptionIdentifier)).length ≤ 5 * ids.length := by
  induction ids with
  | nil => simp [encProps]
  | cons i ids ih =>
    have h1 := ih fun j hj => h j (.tail _ hj)
    have h2 := (varint_rep (n := i) (h i (.head _))).length_le
    rw [List.map_cons, ← List.singleton_append, encProps_append_length]
    have : (encProps [Property.subscriptionIdentifier i]).length = 1 + (varint i).length := by
      simp [encProps, Property.enc, Property.id, Property.value, Nat.add_comm]
    rw [this, List.length_cons]
    omega

theorem copy_list_length {q : Option PublishProperties} {ids : List Nat}
    (h : ∀ i ∈ ids, i ≤ 268435455) :
    (encProps (Spec.PublishProperties.toList (copyProps q ids))).length ≤
      (encProps (optList Spec.PublishProperties.toList q)).length + 5 * ids.length := by
  have h1 := encProps_ids_length h
  cases q with
  | none =>
    simp only [copyProps, Spec.PublishProperties.toList, encProps_append_length, one, users, optList,
      Option.toList_none, List.map_nil]
    simp [encProps] at h1 ⊢
    omega
  | some q =>
    simp only [copyProps, Spec.PublishProperties.toList, encProps_append_length, optList]
    simp only [one, Option.toList_none, List.map_nil]
    have : (encProps []).length = 0 := by simp [encProps]
    omega

theorem copy_list_mem {q : Option PublishProperties} {ids : List Nat} {x : Property}
    (h : x ∈ Spec.PublishProperties.toList (copyProps q ids)) :
    x ∈ optList Spec.PublishProperties.toList q ∨ ∃ i ∈ ids, x = .subscriptionIdentifier i := by
  cases q with
  | none =>
    simp [copyProps, Spec.PublishProperties.toList, one, users] at h
    obtain ⟨i, hi, rfl⟩ := h
    exact .inr ⟨i, hi, rfl⟩
  | some q =>
    simp only [copyProps, Spec.PublishProperties.toList, optList, List.mem_append] at h ⊢
    simp only [one, Option.toList_none, List.map_nil, List.not_mem_nil, or_false] at h ⊢
    rcases h with (((((h | h) | h) | h) | h) | h) | h
    all_goals first
      | (left; simp only [h, true_or, or_true])
      | (obtain ⟨i, hi, rfl⟩ := List.mem_map.1 h; exact .inr ⟨i, hi, rfl⟩)

/-- What is needed of the copy to write and to read it. -/
theorem copy_facts {mode : StrMode} {n : Nat} {p : Publish} {dup : Bool} {qos : QoS} {retain : Bool}
    {pkid : UInt16} {topic : Bytes} {ids : List Nat} (hf : Facts mode n (.Publish p))
    (hid : qos ≠ .AtMostOnce → pkid ≠ 0) (ht : TextField mode topic)
    (hids : ∀ i ∈ ids, i ≤ 268435455) (hn : n + topic.length + 9 + 5 * ids.length ≤ 268435455) :
    Encodable (.Publish (copy p dup qos retain pkid topic ids)) ∧
    StringsOk mode (.Publish (copy p dup qos retain pkid topic ids)) ∧
    (body (.Publish (copy p dup qos retain pkid topic ids))).length ≤
      n + topic.length + 9 + 5 * ids.length := by
  have hlen : (body (.Publish (copy p dup qos retain pkid topic ids))).length ≤
      n + topic.length + 9 + 5 * ids.length := by
    have h1 := hf.len
    have h2 := copy_list_length (q := p.properties) hids
    have hsec : optSection Spec.PublishProperties.toList p.properties =
        propSection (optList Spec.PublishProperties.toList p.properties) := by
      cases p.properties <;> rfl
    have hone : ∀ l : List Property, (propSection l).length =
        (varint (encProps l).length).length + (encProps l).length := by
      intro l; simp [propSection]
    simp only [body, List.length_append, hsec, hone] at h1
    have hb : body (.Publish (copy p dup qos retain pkid topic ids)) =
        str topic ++ (if qos = .AtMostOnce then [] else u16 pkid) ++
          propSection (Spec.PublishProperties.toList (copyProps p.properties ids)) ++
          p.payload := rfl
    rw [hb]
    simp only [List.length_append, hone]
    have hs : ∀ x : Bytes, (str x).length = 2 + x.length := by intro x; simp [str, u16]; omega
    have hu : ∀ x : UInt16, (u16 x).length = 2 := by intro x; simp [u16]
    rw [hs] at h1 ⊢
    have h0 : 1 ≤ (varint (encProps (optList Spec.PublishProperties.toList
        p.properties)).length).length := by
      rw [varint]; split <;> simp
    have h4 : (varint (encProps (Spec.PublishProperties.toList
        (copyProps p.properties ids))).length).length ≤ 4 := by
      refine (varint_rep ?_).length_le
      omega
    by_cases hq : qos = .AtMostOnce
    · rw [if_pos hq, List.length_nil]; omega
    · rw [if_neg hq, hu]; omega
  refine ⟨⟨?_, ?_, by unfold maxVarint; omega, hid⟩, ⟨?_, ?_⟩, hlen⟩
  · simp [fields, texts, copy, ht.1]
  · intro x hx
    rcases copy_list_mem hx with h | ⟨i, hi, rfl⟩
    · exact hf.fits x h
    · exact hids i hi
  · simp [texts, copy, ht.2]
  · intro x hx
    rcases copy_list_mem hx with h | ⟨i, hi, rfl⟩
    · exact hf.strings.2 x h
    · simp [Property.TextsOk, Property.texts]

/-- C70: a copy of a message that was read under a limit `m` can be written for every subscriber,
behind anything, with the flags, packet identifier, topic and subscription identifiers that the
broker chooses. At most 9 bytes, the topic and 5 bytes for each identifier are added to the body. -/
theorem C70_written (mode : StrMode) (m : Nat) (b r : Bytes) (p : Publish)
    (h : Packet.read mode (some m) b = (.ok (.Publish p), r))
    (dup : Bool) (qos : QoS) (retain : Bool) (pkid : UInt16) (topic : Bytes) (ids : List Nat)
    (hid : qos ≠ .AtMostOnce → pkid ≠ 0) (ht : TextField mode topic)
    (hids : ∀ i ∈ ids, i ≤ 268435455) (hm : m + topic.length + 9 + 5 * ids.length ≤ 268435455)
    (buf : Bytes) :
    ∃ w, (Packet.Publish (copy p dup qos retain pkid topic ids)).write buf =
        (.ok w.length, buf ++ w) ∧
      ∃ n, RemLen w n ∧ n ≤ m + topic.length + 9 + 5 * ids.length := by
  obtain ⟨n, hn, hf, -⟩ := read_limit_facts h
  obtain ⟨h1, -, h3⟩ := copy_facts (dup := dup) (retain := retain) hf hid ht hids (by omega)
  refine ⟨_, write_encode h1 trivial (by simp [IsConnect]), _,
    ⟨_, _, body (.Publish (copy p dup qos retain pkid topic ids)), rfl, varint_rep h1.2.2.1, rfl⟩,
    by omega⟩

/-- C70: the subscriber, if its limit admits the copy, reads exactly this: topic, flags, identifier
of the broker's choice, and the payload and the other properties as they were received; if and only
if the miscount of subscription identifiers (C03) does no harm. -/
theorem C70_delivered_iff (mode : StrMode) (m : Nat) (b r : Bytes) (p : Publish)
    (h : Packet.read mode (some m) b = (.ok (.Publish p), r))
    (dup : Bool) (qos : QoS) (retain : Bool) (pkid : UInt16) (topic : Bytes) (ids : List Nat)
    (ht : TextField mode topic)
    (hids : ∀ i ∈ ids, i ≤ 268435455) (hm : m + topic.length + 9 + 5 * ids.length ≤ 268435455)
    (w : Bytes) (k : Nat)
    (hw : (Packet.Publish (copy p dup qos retain pkid topic ids)).write [] = (.ok k, w))
    (max : Option Nat) (hmax : Admits max (m + topic.length + 9 + 5 * ids.length)) (r' : Bytes) :
    Packet.read mode max (w ++ r') =
      (.ok (.Publish { copy p dup qos retain pkid topic ids with
        pkid := if qos = .AtMostOnce then 0 else pkid
        properties := normProps Spec.PublishProperties.toList
          (some (copyProps p.properties ids)) }), r') ↔
    DriftSafe (Spec.PublishProperties.toList (copyProps p.properties ids)) := by
  obtain ⟨n, hn, hf, -⟩ := read_limit_facts h
  have hid : qos ≠ .AtMostOnce → pkid ≠ 0 := (encodable_of_ok hw).2.2.2
  obtain ⟨-, h2, h3⟩ := copy_facts (dup := dup) (retain := retain) hf hid ht hids (by omega)
  exact C03_publish_round_trip_iff (copy p dup qos retain pkid topic ids) mode max k w r' hw h2
    (fun m' hm' => Nat.le_trans (Nat.le_trans h3 (by omega)) (hmax m' hm'))

/-- C70: with at most one subscription identifier this is always so. -/
theorem C70_delivered (mode : StrMode) (m : Nat) (b r : Bytes) (p : Publish)
    (h : Packet.read mode (some m) b = (.ok (.Publish p), r))
    (dup : Bool) (qos : QoS) (retain : Bool) (pkid : UInt16) (topic : Bytes) (ids : List Nat)
    (ht : TextField mode topic) (hone : ids.length ≤ 1)
    (hids : ∀ i ∈ ids, i ≤ 268435455) (hm : m + topic.length + 14 ≤ 268435455)
    (w : Bytes) (k : Nat)
    (hw : (Packet.Publish (copy p dup qos retain pkid topic ids)).write [] = (.ok k, w))
    (max : Option Nat) (hmax : Admits max (m + topic.length + 14)) (r' : Bytes) :
    Packet.read mode max (w ++ r') =
      (.ok (.Publish { copy p dup qos retain pkid topic ids with
        pkid := if qos = .AtMostOnce then 0 else pkid
        properties := normProps Spec.PublishProperties.toList
          (some (copyProps p.properties ids)) }), r') := by
  refine (C70_delivered_iff mode m b r p h dup qos retain pkid topic ids ht hids (by omega) w k hw max
    (fun m' hm' => Nat.le_trans (by omega) (hmax m' hm')) r').2 ?_
  refine driftSafe_of_le_one (encodable_of_ok hw).2.1 ?_
  have : ∀ q, (copyProps q ids).subscription_identifiers = ids := by intro q; cases q <;> rfl
  rw [subIds_publish, this]
  exact hone

/-- A message with topic alias 5, delivered with QoS 1 and subscription identifier 200. -/
example : ∃ p, Packet.read .utf8 (some 20) [0x30, 11, 0, 1, 0x61, 5, 0x01, 1, 0x23, 0, 5, 1, 2] =
      (.ok (.Publish p), []) ∧
    (Packet.Publish (copy p false .AtLeastOnce false 9 [0x61] [200])).write [] =
      (.ok 15, [0x32, 13, 0, 1, 0x61, 0, 9, 5, 0x01, 1, 0x0B, 0xC8, 0x01, 1, 2]) := by
  refine ⟨{
    dup := false, qos := .AtMostOnce, retain := false, topic := [0x61], pkid := 0, payload := [1, 2]
    properties := some {
      payload_format_indicator := some 1, message_expiry_interval := none, topic_alias := some 5
      response_topic := none, correlation_data := none, user_properties := []
      subscription_identifiers := [], content_type := none } }, by decide +kernel, by decide +kernel⟩

end Props
