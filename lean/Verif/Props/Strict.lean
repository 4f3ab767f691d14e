import Verif.Spec.Strict
import Verif.Props.Forward
import Verif.Props.Framing
import Verif.Props.Topic
/-
C65: a strict check of frames by decoding and encoding again.
-/
namespace Props

open Mqtt Spec

theorem value5_propsOf {σ : Type} {toList : σ → List Property} {ofList : List Property → σ}
    {ids many : List UInt8} {ps : List Property} {s : Bytes}
    (hw : ∀ l, Within (toList (ofList l)) l) (h : Section5 ids many ps s) :
    ∀ q ∈ optList toList (propsOf ofList ps), q.Value5 := by
  intro q hq
  unfold propsOf at hq
  split at hq
  · simp [optList] at hq
  · exact h.values q ((hw ps).mem hq)

theorem login_text {flags : UInt8} {user pass : Bytes} {l : Login} (h : Login5 flags user pass)
    (hl : connectLogin flags user pass = some l) : Text5 l.username := by
  have hu : l.username = if bitAt flags 7 then user else [] := by
    unfold connectLogin at hl
    generalize (if bitAt flags 7 = true then user else []) = u at hl
    generalize (if bitAt flags 6 = true then pass else []) = w at hl
    simp only at hl
    split at hl
    · simp at hl
    · simp only [Option.some.injEq] at hl
      subst hl; rfl
  rw [hu]
  split
  · rename_i hb; exact h.1 hb
  · exact ⟨by simp, ⟨[], rfl⟩, by simp⟩

theorem filters_text {items : List (Bytes × UInt8)} {fs : List Mqtt.Filter}
    (h : FiltersAre items fs) (ht : ∀ i ∈ items, Filter5 i.1 ∧ i.2.toNat < 64) :
    ∀ f ∈ fs, Filter5 f.path := by
  induction h with
  | nil => simp
  | cons hp _ _ ih =>
    intro f hf
    rcases List.mem_cons.1 hf with rfl | hf
    · rw [hp]; exact (ht _ List.mem_cons_self).1
    · exact ih (fun i hi => ht i (by simp [hi])) f hf

theorem filters_ne {items : List (Bytes × UInt8)} {fs : List Mqtt.Filter}
    (h : FiltersAre items fs) (hi : items ≠ []) : fs ≠ [] := by
  cases h with
  | nil => exact absurd rfl hi
  | cons => simp

theorem connAckCode_zero {rc : ConnectReturnCode} (h : connAckCode rc = some 0) :
    rc = .Success := by
  cases rc <;> first | rfl | (exfalso; revert h; decide)

/-- C65: the packet that a conforming frame stands for is within the value rules. -/
theorem C65_values (f : Bytes) (p : Packet) (ps : List Property) (h : Conforms f p ps) :
    Values5 p := by
  obtain ⟨flags, bd, hb, -, -⟩ := h
  cases hb with
  | connect _ _ hs ha hc hl =>
    refine ⟨fun q hq => ?_, hc, by simp, fun l h => login_text hl h, auth5_values ha,
      by simp⟩
    simp only [props, List.append_nil] at hq
    exact value5_propsOf ConnectProperties.within hs q hq
  | connectWill _ _ _ hs ha hc hw ht _ hl hm =>
    refine ⟨fun q hq => ?_, hc, fun w h => ?_, fun l h => login_text hl h, auth5_values ha,
      fun w c h hp => ?_⟩
    · simp only [props, List.mem_append] at hq
      rcases hq with hq | hq
      · exact value5_propsOf ConnectProperties.within hs q hq
      · exact value5_propsOf LastWillProperties.within hw q hq
    · simp only [Option.some.injEq] at h; subst h; exact ht
    · simp only [Option.some.injEq] at h; subst h; exact will5_values hm c hp
  | connAck hcode hp hs =>
    refine ⟨value5_propsOf ConnAckProperties.within hs, fun h => ?_⟩
    obtain rfl := hp h
    exact connAckCode_zero hcode
  | publish0 _ ht hs hm =>
    exact ⟨value5_propsOf PublishProperties.within hs, target5_values ht, fun _ => rfl,
      payload5_values hm⟩
  | publish _ _ hq _ ht hs hm =>
    exact ⟨value5_propsOf PublishProperties.within hs, target5_values ht, fun h => absurd h hq,
      payload5_values hm⟩
  | pubAck2 h | pubAck3 h | pubRec2 h | pubRec3 h | pubRel2 h | pubRel3 h | pubComp2 h
  | pubComp3 h => exact ⟨by simp [props, optList], h⟩
  | pubAck h hs => exact ⟨value5_propsOf PubAckProperties.within hs, h⟩
  | pubRec h hs => exact ⟨value5_propsOf PubRecProperties.within hs, h⟩
  | pubRel h hs => exact ⟨value5_propsOf PubRelProperties.within hs, h⟩
  | pubComp h hs => exact ⟨value5_propsOf PubCompProperties.within hs, h⟩
  | subscribe h hs hi hf ht hl =>
    exact ⟨value5_propsOf SubscribeProperties.within hs, h, filters_ne hf hi, filters_text hf ht, hl⟩
  | subAck h hs hr => exact ⟨value5_propsOf SubAckProperties.within hs, h, hr⟩
  | unsubscribe h hs hf ht =>
    exact ⟨value5_propsOf UnsubscribeProperties.within hs, h, hf, ht⟩
  | unsubAck h hs hr => exact ⟨value5_propsOf UnsubAckProperties.within hs, h, hr⟩
  | pingReq | pingResp | disconnect0 | disconnect1 => exact ⟨by simp [props, optList], trivial⟩
  | disconnect hs => exact ⟨value5_propsOf DisconnectProperties.within hs, trivial⟩

/-- C65: a frame that the library decodes and encodes again to the same bytes conforms to MQTT 5
exactly if the values in the packet are permitted. -/
theorem C65_iff (mode : StrMode) (f : Bytes) (p : Packet) (k : Nat)
    (hr : Packet.read mode none f = (.ok p, [])) (hw : p.write [] = (.ok k, f)) :
    (∃ ps, Conforms f p ps) ↔ Values5 p := by
  refine ⟨fun ⟨ps, h⟩ => C65_values f p ps h, fun hv => ?_⟩
  obtain ⟨_, _, _, _, _, _, hf⟩ := read_facts hr
  have hl : ¬ Lossy p := by
    intro hl
    cases p with
    | Disconnect d =>
      obtain ⟨h1, h2⟩ := hl
      have hp : d.properties = none := by
        cases hp : d.properties with
        | none => rfl
        | some q => rw [hp] at h1; exact absurd h1 (hf.shape.2.2.2 q hp)
      have h3 := (Disconnect.write_none hp h2 []).symm.trans hw
      simp only [List.nil_append, Prod.mk.injEq] at h3
      have h4 := read_disconnect_one (mode := mode) d.reason_code (max := none) nofun [0x00]
      rw [← h3.2] at hr
      exact absurd (hr.symm.trans h4) (by simp)
    | _ => exact hl
  obtain ⟨g, ps, hg, hc⟩ := (C43_iff p [] f k hw hv (fun _ => rfl)).2 hl
  rw [List.nil_append] at hg
  subst hg
  rw [hf.norm] at hc
  exact ⟨ps, hc⟩

/-- C65: the check is sound. -/
theorem C65_sound (mode : StrMode) (f : Bytes) (p : Packet) (h : StrictCheck mode f p) :
    ∃ ps, Conforms f p ps := by
  obtain ⟨hr, ⟨k, hw⟩, hv⟩ := h
  exact (C65_iff mode f p k hr hw).2 hv

/-- C65: for the packet of a conforming frame that the library supports there is a frame that passes
the check exactly if the packet is not one of the two exceptions of C29; and then it is only one. -/
theorem C65_exists (mode : StrMode) (f : Bytes) (p : Packet) (ps : List Property)
    (h : Conforms f p ps) (hs : Supported mode f p ps) :
    ((∃ g, StrictCheck mode g p) ↔ ¬ Unstable p) ∧
    (∀ g g', StrictCheck mode g p → StrictCheck mode g' p → g = g') := by
  have hv := C65_values f p ps h
  obtain ⟨n, hn⟩ : ∃ n, RemLen f n := by
    obtain ⟨flags, bd, -, hl, rfl⟩ := h
    exact ⟨_, _, _, _, rfl, varint_rep hl, rfl⟩
  obtain ⟨hread, k, b', hw, -⟩ := C56_forward mode none f [] [] p ps n h hs hn (by simp [Admits])
  have hst := C29_stable_exact mode none _ _ p hread
  have hl := (encodable_of_ok hw).2.2.1
  refine ⟨⟨?_, fun hu => ?_⟩, ?_⟩
  · rintro ⟨g, hr, ⟨k', hw'⟩, -⟩
    refine (hst.1 ⟨k', g, hw', fun r => ?_⟩).2
    have hg : IsFrame g := by
      obtain ⟨b1, v, bd, e, hv, -, -⟩ := read_facts hr
      exact ⟨b1, v, bd, by simpa using e, hv⟩
    obtain ⟨e1, e2⟩ := C15_read_local mode none g r hg
    rw [hr] at e1 e2
    exact Prod.ext e1 e2
  · obtain ⟨k', g, h1, h2⟩ := hst.2 ⟨hl, hu⟩
    exact ⟨g, by simpa using h2 [], ⟨k', h1⟩, hv⟩
  · rintro g g' ⟨-, ⟨k1, h1⟩, -⟩ ⟨-, ⟨k2, h2⟩, -⟩
    rw [h1] at h2
    simp only [Prod.mk.injEq] at h2
    exact h2.2

/-- A PUBLISH and a PUBACK that pass the check; a PUBACK that conforms but is not in the
form `write` gives to it, so does not pass; and a PUBACK with packet identifier 0, which is decoded
and encoded again to the same bytes but does not conform. -/
example :
    StrictCheck .utf8 Sample.publishBytes (Sample.publish [7]) ∧
    StrictCheck .utf8 [0x40, 2, 0, 1]
      (.PubAck { pkid := 1, reason := .Success, properties := none }) ∧
    (∃ ps, Conforms [0x40, 4, 0, 1, 0, 0]
        (.PubAck { pkid := 1, reason := .Success, properties := none }) ps) ∧
    ¬ StrictCheck .utf8 [0x40, 4, 0, 1, 0, 0]
      (.PubAck { pkid := 1, reason := .Success, properties := none }) ∧
    (Packet.read .utf8 none [0x40, 2, 0, 0] =
        (.ok (.PubAck { pkid := 0, reason := .Success, properties := none }), []) ∧
      Packet.write (.PubAck { pkid := 0, reason := .Success, properties := none }) [] =
        (.ok 4, [0x40, 2, 0, 0]) ∧
      ¬ ∃ ps, Conforms [0x40, 2, 0, 0]
        (.PubAck { pkid := 0, reason := .Success, properties := none }) ps) := by
  have text : ∀ s : Bytes, s.length ≤ 65535 → IsUtf8 s → 0 ∉ s → Text5 s :=
    fun s h1 h2 h3 => ⟨h1, h2, h3⟩
  have h := Body5.pubAck (pkid := 1) (rc := .Success) (ps := []) (s := [0]) (by decide)
    ⟨by decide +kernel, by decide, by simp, by simp, by simp⟩
  refine ⟨⟨by decide +kernel, ⟨23, by decide +kernel⟩, ?_, ?_⟩,
    ⟨by decide +kernel, ⟨4, by decide +kernel⟩, by simp [props, optList], by decide⟩,
    ⟨_, 0, _, h, by decide, by decide +kernel⟩, ?_, by decide +kernel, by decide +kernel, ?_⟩
  · have e : props (Sample.publish [7]) = [.payloadFormatIndicator 1, .userProperty [0x6B] [0x76],
        .subscriptionIdentifier 7] := by decide +kernel
    rw [e]
    simp only [List.mem_cons, List.not_mem_nil, or_false, forall_eq_or_imp, forall_eq]
    exact ⟨show (1 : UInt8).toNat ≤ 1 by decide, ⟨text _ (by decide) (by decide +kernel) (by decide),
      text _ (by decide) (by decide +kernel) (by decide)⟩, by decide, by decide⟩
  · exact ⟨.inl ⟨text _ (by decide) (by decide +kernel) (by decide), by decide, by decide,
      by decide⟩, by decide +kernel⟩
  · rintro ⟨-, ⟨k, hw⟩, -⟩
    have : Packet.write (.PubAck { pkid := 1, reason := .Success, properties := none }) [] =
      (.ok 4, [0x40, 2, 0, 1]) := by decide +kernel
    exact absurd (this.symm.trans hw) (by simp)
  · rintro ⟨ps, hc⟩
    exact (C65_values _ _ _ hc).2 rfl

/-- C65: for the topic names and filters among the values, `valid_topic` and `valid_filter` are the
check, besides length, UTF-8 and U+0000, and the form of the filters of shared subscriptions (of which
`valid_filter` accepts some that are not well-formed). -/
theorem C65_topics (s : Bytes) (h : Text5 s) :
    (Name5 s ↔ s ≠ [] ∧ Mqtt.Topic.valid_topic s = true) ∧
    (Filter5 s ↔ Mqtt.Topic.valid_filter s = .ok true ∧ Shared5 s) := by
  constructor
  · unfold Name5 Mqtt.Topic.valid_topic Mqtt.Topic.plus Mqtt.Topic.hash
    simp [h]
    rw [and_comm (a := ¬ _ ∈ s)]
    exact fun _ => Iff.rfl
  · obtain ⟨cs, hcs⟩ := h.2.1
    have e : s = Topic.bytes cs := hcs
    constructor
    · rintro ⟨-, ⟨ds, hd, hv⟩, hs⟩
      exact ⟨by rw [hd]; exact (C41_valid_filter ds).1.2 hv, hs⟩
    · rintro ⟨hv, hs⟩
      rw [e] at hv
      exact ⟨h, ⟨cs, e, (C41_valid_filter cs).1.1 hv⟩, hs⟩

/-- The hypothesis can be met. -/
example : Filter5 [0x61] ∧ ¬ Filter5 [0x61, 0x23] ∧ Text5 [0x61, 0x23] := by
  have t : Text5 [0x61, 0x23] := ⟨by decide, ⟨['a', '#'], by decide⟩, by decide⟩
  exact ⟨filter_a, fun h => absurd ((C65_topics _ t).2.1 h).1 (by decide), t⟩

/-- C65: `valid_filter` does not check the form of shared subscriptions: "$share/g/a" is
well-formed, and "$share/", "$share/g", "$share//a" and "$share/+/a" are accepted and are not. -/
theorem C65_shared :
    Shared5 [0x24, 0x73, 0x68, 0x61, 0x72, 0x65, 0x2F, 0x67, 0x2F, 0x61] ∧
    ∀ r ∈ ([[], [0x67], [0x2F, 0x61], [0x2B, 0x2F, 0x61]] : List Mqtt.Bytes),
      Mqtt.Topic.valid_filter ([0x24, 0x73, 0x68, 0x61, 0x72, 0x65, 0x2F] ++ r) = .ok true ∧
      ¬ Shared5 ([0x24, 0x73, 0x68, 0x61, 0x72, 0x65, 0x2F] ++ r) := by
  constructor
  · intro rest h
    have : rest = [0x67, 0x2F, 0x61] := by
      have h' : [0x24, 0x73, 0x68, 0x61, 0x72, 0x65, 0x2F] ++ [0x67, 0x2F, 0x61] =
        [0x24, 0x73, 0x68, 0x61, 0x72, 0x65, 0x2F] ++ rest := h
      exact (List.append_cancel_left h').symm
    subst this
    exact ⟨[0x67], [0x61], rfl, by decide, by decide, by decide, by decide, by decide⟩
  · intro r hr
    simp only [List.mem_cons, List.not_mem_nil, or_false] at hr
    rcases hr with rfl | rfl | rfl | rfl <;> refine ⟨by decide +kernel, fun h => ?_⟩ <;>
      obtain ⟨g, f, e, hg, h1, h2, h3, hf⟩ := h _ rfl <;>
      rcases g with _ | ⟨x, g⟩
    · exact absurd rfl hg
    · cases e
    · exact absurd rfl hg
    · cases g <;> cases e
    · exact absurd rfl hg
    · injection e with e1 e2
      exact h1 (by rw [← e1]; exact List.mem_cons_self ..)
    · exact absurd rfl hg
    · injection e with e1 e2
      exact h3 (by rw [← e1]; exact List.mem_cons_self ..)

/-- No Local is excluded for them. -/
example (f : Mqtt.Filter)
    (h : f.path = [0x24, 0x73, 0x68, 0x61, 0x72, 0x65, 0x2F, 0x67, 0x2F, 0x61]) :
    NoLocal5 f ↔ f.nolocal = false := by
  unfold NoLocal5
  cases f.nolocal with
  | false => simp
  | true => simp [h, IsShared]

/-- C40, C65: rules of MQTT 5 on topics and between two fields are not checked. A PUBLISH with QoS 0 and DUP, a
CONNACK with Session Present and an error, and a CONNECT with authentication data and no method are
accepted and written back, but do not conform; nor do a PUBLISH to "#", one with an empty topic and
no alias, and a SUBSCRIBE with an empty filter or one with No Local for "$share/g/a", and a
PUBLISH whose payload is announced as UTF-8 and is not. -/
theorem C65_unchecked (mode : StrMode) :
    ∀ f ∈ ([[0x38, 4, 0, 1, 0x61, 0], [0x20, 3, 1, 0x87, 0], [0x30, 4, 0, 1, 0x23, 0],
        [0x30, 3, 0, 0, 0], [0x82, 6, 0, 1, 0, 0, 0, 0], [0x30, 7, 0, 1, 0x61, 2, 1, 1, 0xFF],
        [0x82, 16, 0, 1, 0, 0, 10, 0x24, 0x73, 0x68, 0x61, 0x72, 0x65, 0x2F, 0x67, 0x2F, 0x61, 4],
        [0x10, 17, 0, 4, 0x4D, 0x51, 0x54, 0x54, 5, 2, 0, 60, 4, 0x16, 0, 1, 9, 0, 0]] :
        List Mqtt.Bytes),
      ∃ p, Packet.read mode none f = (.ok p, []) ∧ (∃ k, p.write [] = (.ok k, f)) ∧
        ∀ ps, ¬ Conforms f p ps := by
  refine List.forall_mem_cons.2 ⟨?_, List.forall_mem_cons.2 ⟨?_, List.forall_mem_cons.2 ⟨?_,
    List.forall_mem_cons.2 ⟨?_, List.forall_mem_cons.2 ⟨?_, List.forall_mem_cons.2 ⟨?_,
      List.forall_mem_cons.2 ⟨?_, List.forall_mem_cons.2 ⟨?_, nofun⟩⟩⟩⟩⟩⟩⟩⟩
  · exact ⟨.Publish {
        dup := true, qos := .AtMostOnce, retain := false, topic := [0x61], pkid := 0, payload := [],
        properties := none }, by cases mode <;> decide +kernel, ⟨6, by decide +kernel⟩,
      fun ps h => absurd ((C65_values _ _ _ h).2.2.1 rfl) (by decide)⟩
  · exact ⟨.ConnAck { session_present := true, code := .NotAuthorized, properties := none },
      by cases mode <;> decide +kernel, ⟨5, by decide +kernel⟩,
      fun ps h => absurd ((C65_values _ _ _ h).2 rfl) (by decide)⟩
  · refine ⟨.Publish {
        dup := false, qos := .AtMostOnce, retain := false, topic := [0x23], pkid := 0,
        payload := [], properties := none }, by cases mode <;> decide +kernel,
      ⟨6, by decide +kernel⟩, fun ps h => ?_⟩
    rcases (C65_values _ _ _ h).2.1 with h | ⟨h, -⟩
    · exact absurd h.2.2.1 (by decide)
    · exact absurd h (by decide)
  · refine ⟨.Publish {
        dup := false, qos := .AtMostOnce, retain := false, topic := [], pkid := 0,
        payload := [], properties := none }, by cases mode <;> decide +kernel,
      ⟨5, by decide +kernel⟩, fun ps h => ?_⟩
    rcases (C65_values _ _ _ h).2.1 with h | ⟨-, _, h, -⟩
    · exact h.2.1 rfl
    · cases h
  · refine ⟨.Subscribe {
        pkid := 1, filters := [⟨[], .AtMostOnce, false, false, .OnEverySubscribe⟩],
        properties := none }, by cases mode <;> decide +kernel,
      ⟨8, by decide +kernel⟩, fun ps h => ?_⟩
    obtain ⟨-, ⟨cs, hb, hv, -⟩, -⟩ := (C65_values _ _ _ h).2.2.2.1 _ List.mem_cons_self
    cases cs with
    | nil => exact hv rfl
    | cons c cs =>
      have h1 := congrArg List.length hb
      have h2 : 0 < (utf8Char c).length := by
        unfold utf8Char
        simp only
        split
        · simp
        · split
          · simp
          · split <;> simp
      simp only [Topic.bytes, List.flatMap_cons, List.length_nil, List.length_append] at h1
      omega
  · refine ⟨.Publish {
        dup := false, qos := .AtMostOnce, retain := false, topic := [0x61], pkid := 0,
        payload := [0xFF], properties := some {
          payload_format_indicator := some 1, message_expiry_interval := none,
          topic_alias := none, response_topic := none, correlation_data := none,
          user_properties := [], subscription_identifiers := [], content_type := none } },
      by cases mode <;> decide +kernel, ⟨9, by decide +kernel⟩, fun ps h => ?_⟩
    exact absurd ((utf8Valid_iff _).2 ((C65_values _ _ _ h).2.2.2 _ rfl rfl)) (by decide)
  · exact ⟨.Subscribe {
        pkid := 1,
        filters := [{
          path := [0x24, 0x73, 0x68, 0x61, 0x72, 0x65, 0x2F, 0x67, 0x2F, 0x61],
          qos := .AtMostOnce, nolocal := true, preserve_retain := false,
          retain_forward_rule := .OnEverySubscribe }],
        properties := none }, by cases mode <;> decide +kernel,
      ⟨18, by decide +kernel⟩, fun ps h =>
        (C65_values _ _ _ h).2.2.2.2 _ List.mem_cons_self rfl [0x67, 0x2F, 0x61] rfl⟩
  · exact ⟨.Connect {
        keep_alive := 60, client_id := [], clean_start := true,
        properties := some {
          session_expiry_interval := none, receive_maximum := none, max_packet_size := none,
          topic_alias_max := none, request_response_info := none, request_problem_info := none,
          user_properties := [], authentication_method := none,
          authentication_data := some [9] } } none none,
      by cases mode <;> decide +kernel, ⟨19, by decide +kernel⟩,
      fun ps h => absurd ((C65_values _ _ _ h).2.2.2.2.1 _ rfl rfl) (by decide)⟩

end Props
