import Verif.Spec.Alias
import Verif.Props.Will
import Verif.Props.Deliver
import Verif.Props.Pipeline
/-
C83: topic aliases.
-/
namespace Props

open Mqtt Spec

theorem subIds_append (a b : List Property) : subIds (a ++ b) = subIds a + subIds b := by
  simp [subIds, all]

theorem driftSafe_append {a b : List Property} (h : subIds a = 0) :
    DriftSafe (a ++ b) ↔ DriftSafe b := by
  constructor
  · intro hd pre p post he
    have := hd (a ++ pre) p post (by rw [he, List.append_assoc])
    rw [subIds_append, h] at this
    omega
  · intro hd pre p post he
    rcases List.append_eq_append_iff.1 he with ⟨c, rfl, hb⟩ | ⟨c, rfl, hb⟩
    · have := hd c p post hb
      rw [subIds_append, h]
      omega
    · rw [subIds_append] at h
      have : 0 < (encProps (p :: post)).length := by simp [encProps, Property.enc]
      omega

/-- The properties before and behind the alias. -/
theorem publish_list_split (q : PublishProperties) : ∃ a b, subIds a = 0 ∧
    ∀ x, Spec.PublishProperties.toList { q with topic_alias := x } =
      a ++ (one .topicAlias x ++ b) := by
  refine ⟨one .payloadFormatIndicator q.payload_format_indicator ++
    one .messageExpiryInterval q.message_expiry_interval, one .responseTopic q.response_topic ++
      (one .correlationData q.correlation_data ++ (users q.user_properties ++
      (q.subscription_identifiers.map .subscriptionIdentifier ++
      one .contentType q.content_type))), ?_, fun x => ?_⟩
  · cases q.payload_format_indicator <;> cases q.message_expiry_interval <;> rfl
  · simp only [Spec.PublishProperties.toList, List.append_assoc]

theorem withAlias_list (m : Publish) (a : UInt16) (h : aliasOf m = none) : ∃ l r, subIds l = 0 ∧
    optList Spec.PublishProperties.toList m.properties = l ++ r ∧
    Spec.PublishProperties.toList (withAlias m.properties a) = l ++ (.topicAlias a :: r) := by
  cases hp : m.properties with
  | none =>
    exact ⟨[], [], rfl, rfl, rfl⟩
  | some q =>
    obtain ⟨l, r, h1, h2⟩ := publish_list_split q
    have hn : q.topic_alias = none := by simpa [aliasOf, hp] using h
    refine ⟨l, r, h1, ?_, h2 (some a)⟩
    have := h2 none
    rw [← hn] at this
    change Spec.PublishProperties.toList q = l ++ (one .topicAlias q.topic_alias ++ r) at this
    rw [hn] at this
    exact this

theorem alias_driftSafe (m : Publish) (a : UInt16) (h : aliasOf m = none) :
    DriftSafe (Spec.PublishProperties.toList (withAlias m.properties a)) ↔
      DriftSafe (optList Spec.PublishProperties.toList m.properties) := by
  obtain ⟨l, r, h1, h2, h3⟩ := withAlias_list m a h
  rw [h2, h3, driftSafe_append h1, driftSafe_append h1]
  exact driftSafe_append (a := [.topicAlias a]) rfl

/-- A message with an alias, and the topic or not, survives if the message alone does. -/
theorem alias_survives {mode : StrMode} {m : Publish} {a : UInt16} {t : Bytes}
    (h : aliasOf m = none) (ht : t = m.topic ∨ t = [])
    (hs : SurvivesAlone mode none (.Publish m))
    (he : Encodable (.Publish { m with topic := t, properties := some (withAlias m.properties a) })) :
    SurvivesAlone mode none
      (.Publish { m with topic := t, properties := some (withAlias m.properties a) }) := by
  obtain ⟨-, h2, h3, -⟩ := (C12_survives_iff mode _).1 hs
  obtain ⟨l, r, h4, h5, h6⟩ := withAlias_list m a h
  refine (C12_survives_iff mode _).2 ⟨he, ⟨?_, ?_⟩, ?_, id⟩
  · intro s hs'
    rcases ht with rfl | rfl
    · exact h2.1 s hs'
    · have : s = [] := by simpa [texts] using hs'
      subst this
      intro _
      exact ⟨[], rfl⟩
  · intro q hq
    change q ∈ Spec.PublishProperties.toList (withAlias m.properties a) at hq
    have hall : ∀ x ∈ l ++ r, x.TextsOk mode := by rw [← h5]; exact h2.2
    rw [h6] at hq
    rcases List.mem_append.1 hq with hq | hq
    · exact hall q (List.mem_append_left _ hq)
    · rcases List.mem_cons.1 hq with rfl | hq
      · simp [Property.TextsOk, Property.texts]
      · exact hall q (List.mem_append_right _ hq)
  · exact (alias_driftSafe m a h).2 h3

theorem alias_norm {m : Publish} {a : UInt16} {t : Bytes} :
    norm (.Publish { m with topic := t, properties := some (withAlias m.properties a) }) =
      .Publish { m with
        topic := t, pkid := if m.qos = .AtMostOnce then 0 else m.pkid
        properties := some (withAlias m.properties a) } := by
  have : Spec.PublishProperties.toList (withAlias m.properties a) ≠ [] := by
    cases m.properties <;> simp [withAlias, Spec.PublishProperties.toList, one]
  simp [norm, normProps, this]

theorem without_with (m : Publish) (a : UInt16) (h : aliasOf m = none) :
    withoutAlias (some (withAlias m.properties a)) =
      normProps Spec.PublishProperties.toList m.properties := by
  cases hp : m.properties with
  | none => simp [withAlias, withoutAlias, normProps, noPublishProps]
  | some q =>
    have hn : q.topic_alias = none := by simpa [aliasOf, hp] using h
    have hq : { q with topic_alias := none } = q := by rw [← hn]
    simp only [withAlias, withoutAlias, hq, normProps, Option.filter_some]
    by_cases h0 : q = noPublishProps
    · subst h0; rfl
    · have : Spec.PublishProperties.toList q ≠ [] := fun e => h0 (publish_list_nil e)
      simp [h0, this]

theorem alias_with (m : Publish) (a : UInt16) : (withAlias m.properties a).topic_alias = some a := by
  cases m.properties <;> rfl

theorem aliasOf_norm {m : Publish} (h : aliasOf m = none) :
    (normProps Spec.PublishProperties.toList m.properties).bind (·.topic_alias) = none := by
  cases hp : m.properties with
  | none => rfl
  | some q =>
    have hn : q.topic_alias = none := by simpa [aliasOf, hp] using h
    simp only [normProps, Option.filter_some]
    split
    · exact hn
    · rfl

theorem resolve_norm {tab : Aliases} {l : List (Packet × Packet)} (h : Aliased tab l) :
    resolve tab (l.map fun x => norm x.2) = some (l.map fun x => norm x.1) := by
  induction h with
  | nil => rfl
  | @other tab p l hp _ ih =>
    rw [List.map_cons, List.map_cons]
    generalize (l.map fun x => norm x.2) = tl at *
    generalize (l.map fun x => norm x.1) = tl' at *
    cases p with
    | Publish m => exact absurd rfl (hp m)
    | _ => simp only [norm, resolve, ih, Option.map_some]
  | @plain tab m l ht ha _ ih =>
    rw [List.map_cons, List.map_cons]
    generalize (l.map fun x => norm x.2) = tl at *
    generalize (l.map fun x => norm x.1) = tl' at *
    simp only [norm, resolve, aliasOf, aliasOf_norm ha, if_neg ht, ih, Option.map_some]
  | @define tab m l a ht ha _ ih =>
    rw [List.map_cons, List.map_cons]
    generalize (l.map fun x => norm x.2) = tl at *
    generalize (l.map fun x => norm x.1) = tl' at *
    have := alias_norm (m := m) (a := a) (t := m.topic)
    simp only [this]
    simp only [norm, resolve, aliasOf, Option.bind_some, alias_with, if_neg ht, ih, Option.map_some,
      without_with m a ha]
  | @use tab m l a ht ha htab _ ih =>
    rw [List.map_cons, List.map_cons]
    generalize (l.map fun x => norm x.2) = tl at *
    generalize (l.map fun x => norm x.1) = tl' at *
    simp only [alias_norm]
    simp only [norm, resolve, aliasOf, Option.bind_some, alias_with, if_pos, htab, ih,
      Option.map_some, without_with m a ha]

theorem aliased_mem {tab : Aliases} {l : List (Packet × Packet)} (h : Aliased tab l) :
    ∀ x ∈ l, x.2 = x.1 ∨ ∃ m a t, x.1 = .Publish m ∧ aliasOf m = none ∧ (t = m.topic ∨ t = []) ∧
      x.2 = .Publish { m with topic := t, properties := some (withAlias m.properties a) } := by
  induction h with
  | nil => simp
  | other _ _ ih => exact List.forall_mem_cons.2 ⟨.inl rfl, ih⟩
  | plain _ _ _ ih => exact List.forall_mem_cons.2 ⟨.inl rfl, ih⟩
  | define a _ ha _ ih => exact List.forall_mem_cons.2 ⟨.inr ⟨_, a, _, rfl, ha, .inl rfl, rfl⟩, ih⟩
  | use a _ ha _ _ ih => exact List.forall_mem_cons.2 ⟨.inr ⟨_, a, _, rfl, ha, .inr rfl, rfl⟩, ih⟩

theorem writeAll_encodable {ps : List Packet} {b b' : Bytes} (h : WriteAll ps b b') :
    ∀ p ∈ ps, Encodable p := by
  induction h with
  | nil => simp
  | cons h _ ih => exact List.forall_mem_cons.2 ⟨encodable_of_ok h, ih⟩

/-- C83: however a sender uses aliases, the receiver, if its limit admits what is sent, gets the
messages back, all of them and in order, whatever follows; provided that each message survives alone and
with its own topic. -/
theorem C83_delivered (mode : StrMode) (max : Option Nat) (l : List (Packet × Packet))
    (hl : Aliased .start l) (hs : ∀ x ∈ l, SurvivesAlone mode none x.1) (buf : Bytes)
    (hw : WriteAll (l.map (·.2)) [] buf) (hc : ∀ x ∈ l.tail, ¬ IsConnect x.2)
    (hm : ∀ x ∈ l, Admits max (body x.2).length) (r : Bytes) :
    ∃ got, ReadAll mode max (buf ++ r) got r ∧
      resolve .start got = some (l.map fun x => norm x.1) := by
  refine ⟨_, ?_, resolve_norm hl⟩
  have := (C12_pipeline_iff mode max (l.map (·.2)) buf r hw (by
    intro p hp
    rw [← List.map_tail] at hp
    obtain ⟨x, hx, rfl⟩ := List.mem_map.1 hp
    exact hc x hx)).2
  rw [List.map_map] at this
  refine this fun p hp => ?_
  obtain ⟨x, hx, rfl⟩ := List.mem_map.1 hp
  have he := writeAll_encodable hw _ (List.mem_map.2 ⟨x, hx, rfl⟩)
  have h1 : SurvivesAlone mode none x.2 := by
    rcases aliased_mem hl x hx with h | ⟨m, a, t, h1, h2, h3, h4⟩
    · rw [h]; exact hs x hx
    · have := hs x hx
      rw [h1] at this
      rw [h4] at he ⊢
      exact alias_survives h2 h3 this he
  obtain ⟨h2, h3, h4, h5⟩ := (C12_survives_iff mode _).1 h1
  obtain ⟨n, w, hw', -⟩ := h1
  obtain ⟨w', rfl, h⟩ := write_read hw' (fun _ => rfl) h3 h4 h5 (max := max) (hm x hx)
  exact ⟨n, _, hw', by simpa using h []⟩

/-- C83, lengths: the alias in place of the topic makes the body shorter by the topic but for 3 bytes, or
4 if the length of the properties then needs one more byte; so for a topic of at least 5 bytes it always
saves something. -/
theorem C83_length (m : Publish) (a : UInt16) (h : aliasOf m = none)
    (he : Encodable (.Publish { m with topic := [], properties := some (withAlias m.properties a) })) :
    ∃ d, d ≤ 1 ∧
      (body (.Publish { m with topic := [], properties := some (withAlias m.properties a) })).length +
        m.topic.length = (body (.Publish m)).length + 3 + d := by
  obtain ⟨l, r, -, h5, h6⟩ := withAlias_list m a h
  have hsec : optSection Spec.PublishProperties.toList m.properties =
      propSection (optList Spec.PublishProperties.toList m.properties) := by
    cases m.properties <;> rfl
  have hone : ∀ l : List Property, (propSection l).length =
      (varint (encProps l).length).length + (encProps l).length := by
    intro l; simp [propSection]
  have e : (encProps (Spec.PublishProperties.toList (withAlias m.properties a))).length =
      (encProps (optList Spec.PublishProperties.toList m.properties)).length + 3 := by
    have h1 : (encProps [Property.topicAlias a]).length = 3 := by
      simp [encProps, Property.enc, Property.value, u16]
    rw [h5, h6, show l ++ Property.topicAlias a :: r = l ++ ([Property.topicAlias a] ++ r) from rfl,
      encProps_append_length, encProps_append_length, encProps_append_length, h1]
    omega
  have hb : body (.Publish { m with topic := [], properties := some (withAlias m.properties a) }) =
      str [] ++ (if m.qos = .AtMostOnce then [] else u16 m.pkid) ++
        propSection (Spec.PublishProperties.toList (withAlias m.properties a)) ++ m.payload := rfl
  have hb2 : body (.Publish m) =
      str m.topic ++ (if m.qos = .AtMostOnce then [] else u16 m.pkid) ++
        propSection (optList Spec.PublishProperties.toList m.properties) ++ m.payload := by
    rw [← hsec]; rfl
  have hlen := he.2.2.1
  rw [hb] at hlen
  simp only [List.length_append, hone, e] at hlen
  rw [hb, hb2]
  simp only [List.length_append, hone, e, str_length, List.length_nil]
  generalize (encProps (optList Spec.PublishProperties.toList m.properties)).length = n at *
  have h2 := varint_length_mono (Nat.le_add_right n 3)
  have h3 : (varint (n + 3)).length ≤ (varint n).length + 1 := by
    have h4 : (varint (n + 3)).length ≤ (varint ((n + 3) / 128)).length + 1 := by
      rw [varint]
      split
      · simp
      · simp
    have h5 := varint_length_mono (show (n + 3) / 128 ≤ n by omega)
    omega
  exact ⟨(varint (n + 3)).length - (varint n).length, by omega, by omega⟩

/-- C83: the library does not check aliases. It reads a message with the alias 0, which MQTT 5 forbids, and
one with neither topic nor alias: the receiver has to refuse them, as `resolve` does. -/
theorem C83_unchecked :
    Packet.read .utf8 none [0x30, 6, 0, 0, 3, 0x23, 0, 0] = (.ok (.Publish {
      dup := false, qos := .AtMostOnce, retain := false, topic := [], pkid := 0, payload := []
      properties := some (withAlias none 0) }), []) ∧
    Packet.read .utf8 none [0x30, 3, 0, 0, 0] = (.ok (.Publish {
      dup := false, qos := .AtMostOnce, retain := false, topic := [], pkid := 0, payload := []
      properties := none }), []) ∧
    ∀ ps, resolve .start (.Publish {
      dup := false, qos := .AtMostOnce, retain := false, topic := [], pkid := 0, payload := []
      properties := none } :: ps) = none := by
  refine ⟨by decide +kernel, by decide +kernel, fun ps => rfl⟩

/-- A message of the example below. -/
def sampleMsg (x : UInt8) : Publish := {
  dup := false, qos := .AtMostOnce, retain := false, topic := [0x74, 0x2F, 0x31], pkid := 0
  payload := [x], properties := none }

/-- "t/1" is sent twice with the alias 7, with a PINGREQ in between, and once without: all hypotheses of
`C83_delivered` are met. -/
example :
    Aliased .start [
      (.Publish (sampleMsg 1),
        .Publish { sampleMsg 1 with properties := some (withAlias none 7) }),
      (.PingReq, .PingReq),
      (.Publish (sampleMsg 2),
        .Publish { sampleMsg 2 with topic := [], properties := some (withAlias none 7) }),
      (.Publish (sampleMsg 3), .Publish (sampleMsg 3))] ∧
    (∀ p ∈ [Packet.Publish (sampleMsg 1), .PingReq, .Publish (sampleMsg 2), .Publish (sampleMsg 3)],
      SurvivesAlone .utf8 none p) ∧
    WriteAll [.Publish { sampleMsg 1 with properties := some (withAlias none 7) }, .PingReq,
      .Publish { sampleMsg 2 with topic := [], properties := some (withAlias none 7) },
      .Publish (sampleMsg 3)] []
      [0x30, 10, 0, 3, 0x74, 0x2F, 0x31, 3, 0x23, 0, 7, 1, 0xC0, 0, 0x30, 7, 0, 0, 3, 0x23, 0, 7, 2,
       0x30, 7, 0, 3, 0x74, 0x2F, 0x31, 0, 3] := by
  refine ⟨?_, ?_, ?_⟩
  · exact .define 7 (by decide +kernel) rfl (.other (by intro m h; cases h)
      (.use 7 (by decide +kernel) rfl (by decide +kernel) (.plain (by decide +kernel) rfl (.nil _))))
  · have h : ∀ x, x = 1 ∨ x = 2 ∨ x = 3 → SurvivesAlone .utf8 none (.Publish (sampleMsg x)) := by
      rintro x (rfl | rfl | rfl)
      · exact ⟨9, [0x30, 7, 0, 3, 0x74, 0x2F, 0x31, 0, 1], by decide +kernel, by decide +kernel⟩
      · exact ⟨9, [0x30, 7, 0, 3, 0x74, 0x2F, 0x31, 0, 2], by decide +kernel, by decide +kernel⟩
      · exact ⟨9, [0x30, 7, 0, 3, 0x74, 0x2F, 0x31, 0, 3], by decide +kernel, by decide +kernel⟩
    intro p hp
    simp only [List.mem_cons, List.not_mem_nil, or_false] at hp
    rcases hp with rfl | rfl | rfl | rfl
    · exact h 1 (.inl rfl)
    · exact ⟨2, [0xC0, 0], by decide +kernel, by decide +kernel⟩
    · exact h 2 (.inr (.inl rfl))
    · exact h 3 (.inr (.inr rfl))
  · exact .cons (n := 12)
      (b1 := [0x30, 10, 0, 3, 0x74, 0x2F, 0x31, 3, 0x23, 0, 7, 1]) (by decide +kernel)
      (.cons (n := 2)
        (b1 := [0x30, 10, 0, 3, 0x74, 0x2F, 0x31, 3, 0x23, 0, 7, 1, 0xC0, 0]) (by decide +kernel)
      (.cons (n := 9)
        (b1 := [0x30, 10, 0, 3, 0x74, 0x2F, 0x31, 3, 0x23, 0, 7, 1, 0xC0, 0,
          0x30, 7, 0, 0, 3, 0x23, 0, 7, 2]) (by decide +kernel)
      (.cons (n := 9)
        (b1 := [0x30, 10, 0, 3, 0x74, 0x2F, 0x31, 3, 0x23, 0, 7, 1, 0xC0, 0,
          0x30, 7, 0, 0, 3, 0x23, 0, 7, 2, 0x30, 7, 0, 3, 0x74, 0x2F, 0x31, 0, 3]) (by decide +kernel)
        (.nil _))))

end Props
