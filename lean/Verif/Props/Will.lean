import Verif.Spec.Will
import Verif.Props.Respond
/-
C78: publishing a client's will.
-/
namespace Props

open Mqtt Spec

theorem publish_list_nil {q : PublishProperties} (h : Spec.PublishProperties.toList q = []) :
    q = noPublishProps := by
  obtain ⟨a, b, c, d, e, f, g, i⟩ := q
  simp only [Spec.PublishProperties.toList, List.append_eq_nil_iff, one, users, List.map_eq_nil_iff,
    Option.toList_eq_nil_iff] at h
  simp_all [noPublishProps]

theorem will_list_cases (w : LastWill) (id : UInt16) :
    (optList Spec.PublishProperties.toList (willMessage w id).properties = [] ∧
      (willMessage w id).properties = none) ∨
    ∃ q, w.properties = some q ∧ (willMessage w id).properties = some (willProps q) ∧
      Spec.PublishProperties.toList (willProps q) ≠ [] := by
  cases h : w.properties with
  | none => left; simp [willMessage, h, optList]
  | some q =>
    by_cases hq : willProps q = noPublishProps
    · left; simp [willMessage, h, hq, optList]
    · right
      exact ⟨q, rfl, by simp [willMessage, h, hq], fun he => hq (publish_list_nil he)⟩

theorem will_mem {q : LastWillProperties} {x : Property}
    (h : x ∈ Spec.PublishProperties.toList (willProps q)) :
    x ∈ Spec.LastWillProperties.toList q ∧ x.subscriptionIdentifier? = none := by
  simp only [Spec.PublishProperties.toList, willProps, one, users, Option.toList_none, List.map_nil,
    List.append_nil, List.mem_append, List.mem_map, Option.mem_toList] at h
  simp only [Spec.LastWillProperties.toList, one, users, List.mem_append, List.mem_map,
    Option.mem_toList]
  rcases h with ((((h | h) | h) | h) | h) | h
  all_goals
    refine ⟨by simp only [h, true_or, or_true], ?_⟩
    obtain ⟨y, -, rfl⟩ := h
    rfl

theorem will_length {q : LastWillProperties} :
    (encProps (Spec.PublishProperties.toList (willProps q))).length ≤
      (encProps (Spec.LastWillProperties.toList q)).length := by
  simp only [Spec.PublishProperties.toList, Spec.LastWillProperties.toList, willProps,
    encProps_append_length]
  have : (encProps []).length = 0 := by simp [encProps]
  simp only [one, Option.toList_none, List.map_nil, this]
  omega

theorem will_facts {mode : StrMode} {n : Nat} {c : Connect} {w : LastWill} {login : Option Login}
    {id : UInt16} (hf : Facts mode n (.Connect c (some w) login)) (hn : n ≤ 268435455)
    (hid : w.qos = .AtMostOnce ↔ id = 0) :
    Encodable (.Publish (willMessage w id)) ∧
    (∀ q ∈ props (.Publish (willMessage w id)), q.TextsOk mode) ∧
    Readable (.Publish (willMessage w id)) ∧
    norm (.Publish (willMessage w id)) = .Publish (willMessage w id) ∧
    (body (.Publish (willMessage w id))).length + 9 + c.client_id.length ≤ n := by
  have hsub : ∀ x ∈ optList Spec.PublishProperties.toList (willMessage w id).properties,
      x ∈ props (.Connect c (some w) login) ∧ x.subscriptionIdentifier? = none := by
    intro x hx
    rcases will_list_cases w id with ⟨h, -⟩ | ⟨q, hq, h, -⟩
    · rw [h] at hx; cases hx
    · rw [h] at hx
      have := will_mem hx
      exact ⟨by simp [props, hq, optList, this.1], this.2⟩
  have hs : ∀ y : Bytes, (str y).length = 2 + y.length := by intro y; simp [str, u16]; omega
  have hu : ∀ y : UInt16, (u16 y).length = 2 := by intro y; simp [u16]
  have hsec : ∀ {α : Type} (f : α → List Property) o, optSection f o = propSection (optList f o) := by
    intro α f o; cases o <;> rfl
  have hone : ∀ l : List Property, (propSection l).length =
      (varint (encProps l).length).length + (encProps l).length := by
    intro l; simp [propSection]
  have hle : (encProps (optList Spec.PublishProperties.toList
      (willMessage w id).properties)).length ≤
      (encProps (optList Spec.LastWillProperties.toList w.properties)).length := by
    rcases will_list_cases w id with ⟨h, -⟩ | ⟨q, hq, h, -⟩
    · rw [h]; simp [encProps]
    · rw [h, hq]; exact will_length
  have hlen : (body (.Publish (willMessage w id))).length + 9 + c.client_id.length ≤ n := by
    have h1 := hf.len
    have hb : body (.Publish (willMessage w id)) =
        str w.topic ++ (if w.qos = .AtMostOnce then [] else u16 id) ++
          optSection Spec.PublishProperties.toList (willMessage w id).properties ++ w.message := rfl
    rw [hb]
    have hid2 : (if w.qos = .AtMostOnce then ([] : Bytes) else u16 id).length ≤ 2 := by
      by_cases hq : w.qos = .AtMostOnce
      · rw [if_pos hq]; simp
      · rw [if_neg hq, hu]; omega
    have h0 := varint_length_pos
      (encProps (optList Spec.ConnectProperties.toList c.properties)).length
    have h2 := varint_length_mono hle
    simp only [body, willBytes, List.length_append, hsec, hone, hs, hu, List.length_cons,
      List.length_nil] at h1 ⊢
    omega
  refine ⟨⟨?_, fun x hx => hf.fits x (hsub x hx).1, by unfold maxVarint; omega, ?_⟩,
    fun x hx => hf.strings.2 x (hsub x hx).1, ?_, ?_, hlen⟩
  · have := hf.fields w.topic (by simp [fields])
    simpa [fields, texts, willMessage] using this
  · intro h0 h1
    exact h0 (hid.2 h1)
  · refine driftSafe_of_le_one (fun y hy => hf.fits y (hsub y hy).1) ?_
    have : subIds (optList Spec.PublishProperties.toList (willMessage w id).properties) = 0 := by
      unfold subIds all
      rw [List.length_eq_zero_iff, List.filterMap_eq_nil_iff]
      exact fun x hx => (hsub x hx).2
    omega
  · have e1 : normProps Spec.PublishProperties.toList (willMessage w id).properties =
        (willMessage w id).properties := by
      rcases will_list_cases w id with ⟨-, h⟩ | ⟨q, -, h, hne⟩
      · rw [h]; rfl
      · rw [h]; simp [normProps, hne]
    have e2 : (if w.qos = .AtMostOnce then (0 : UInt16) else id) = id := by
      by_cases h : w.qos = .AtMostOnce
      · rw [if_pos h, hid.1 h]
      · rw [if_neg h]
    show Packet.Publish { willMessage w id with
      pkid := if w.qos = .AtMostOnce then (0 : UInt16) else id
      properties := normProps Spec.PublishProperties.toList (willMessage w id).properties } = _
    rw [e1, e2]
    rfl

/-- C78: the will in every CONNECT that was read under a limit `m` can be published: its message is
written behind anything, with a remaining length that is at least 9 below `m`; and a receiver whose
limit admits it reads exactly this message, whatever follows, if and only if the topic of the will
is text. -/
theorem C78_published (mode : StrMode) (m : Nat) (b r : Bytes) (c : Connect) (w : LastWill)
    (login : Option Login) (h : Packet.read mode (some m) b = (.ok (.Connect c (some w) login), r))
    (id : UInt16) (hid : w.qos = .AtMostOnce ↔ id = 0) (buf : Bytes) :
    ∃ x n, (Packet.Publish (willMessage w id)).write buf = (.ok x.length, buf ++ x) ∧
      RemLen x n ∧ n + 9 + c.client_id.length ≤ m ∧
      ∀ max r', Admits max n →
        (Packet.read mode max (x ++ r') = (.ok (.Publish (willMessage w id)), r') ↔
          TextOk mode w.topic) := by
  obtain ⟨b1, v, bd, rfl, hv, hm, -, hb⟩ := read_ok_iff.1 h
  have hk : bd.length ≤ m := Nat.not_lt.1 fun hlt => hm ⟨m, rfl, hlt⟩
  obtain ⟨h1, h2, h3, h4, h5⟩ := will_facts (id := id) (facts hb hv.le) hv.le hid
  refine ⟨_, _, write_encode h1 trivial (by simp [IsConnect]),
    ⟨_, _, body (.Publish (willMessage w id)), rfl, varint_rep h1.2.2.1, rfl⟩, by omega, ?_⟩
  intro max r' ha
  constructor
  · intro hr
    obtain ⟨_, _, _, _, _, _, hg⟩ := read_facts hr
    exact hg.strings.1 w.topic (by simp [texts, willMessage])
  · intro ht
    have := read_encode h1 ⟨by simpa [texts, willMessage] using ht, h2⟩ h3 ha r'
    rwa [h4] at this

/-- A will with delay and expiry, and its message. -/
example : ∃ c w, Packet.read .utf8 (some 100)
      [0x10, 30, 0, 4, 0x4D, 0x51, 0x54, 0x54, 5, 0x0E, 0, 9, 0, 0, 0,
        10, 0x18, 0, 0, 0, 7, 0x02, 0, 0, 0, 8, 0, 1, 0x74, 0, 1, 9] =
      (.ok (.Connect c (some w) none), []) ∧ w.qos = .AtLeastOnce ∧
    (Packet.Publish (willMessage w 3)).write [] =
      (.ok 14, [0x32, 12, 0, 1, 0x74, 0, 3, 5, 0x02, 0, 0, 0, 8, 9]) := by
  refine ⟨{ keep_alive := 9, client_id := [], clean_start := true, properties := none },
    { topic := [0x74], message := [9], qos := .AtLeastOnce, retain := false, properties := some {
        delay_interval := some 7, payload_format_indicator := none
        message_expiry_interval := some 8, content_type := none, response_topic := none
        correlation_data := none, user_properties := [] } },
    by decide +kernel, rfl, by decide +kernel⟩

/-- C78, the exception: this CONNECT, whose will has a topic that is not UTF-8, is accepted in the
default build. -/
theorem C78_exception :
    ∃ c w, Packet.read .utf8 (some 100)
      [0x10, 20, 0, 4, 0x4D, 0x51, 0x54, 0x54, 5, 0x06, 0, 9, 0, 0, 0, 0, 0, 1, 0xFF, 0, 1, 9] =
      (.ok (.Connect c (some w) none), []) ∧ ¬ TextOk .utf8 w.topic := by
  refine ⟨{ keep_alive := 9, client_id := [], clean_start := true, properties := none },
    { topic := [0xFF], message := [9], qos := .AtMostOnce, retain := false, properties := none },
    by decide +kernel, ?_⟩
  intro h
  have : ¬ IsUtf8 [0xFF] := by decide +kernel
  exact this (h rfl)

end Props
