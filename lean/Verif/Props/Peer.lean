import Verif.Spec.Peer
import Verif.Props.Drift
import Verif.Props.Grammar
import Verif.Props.Isolation
/-
C66: what a user is given of the packets that a peer sends who keeps to MQTT 5.
-/
namespace Props

open Mqtt Spec

theorem encProps_append (a b : List Property) : encProps (a ++ b) = encProps a ++ encProps b := by
  simp [encProps]

theorem subIds_append (a b : List Property) : subIds (a ++ b) = subIds a + subIds b := by
  simp [subIds, all]

/-- The point where the reader stops, in a section in shortest form. -/
theorem stops_enc {pre post : List Property} (hf : ∀ p ∈ pre ++ post, p.Fits)
    (h1 : (encProps post).length ≤ subIds pre)
    (h2 : ∀ a q b, pre = a ++ q :: b → subIds a < (encProps (q :: b ++ post)).length) :
    Stops (pre ++ post) (encProps (pre ++ post)) pre (encProps pre) (encProps post) := by
  have hpre : ∀ p ∈ pre, p.Fits := fun p hp => hf p (by simp [hp])
  refine ⟨⟨post, rfl, seqRep_enc fun p hp => hf p (by simp [hp])⟩, encProps_append _ _,
    seqRep_enc hpre, h1, ?_⟩
  intro init lst wa wb e1 e2 e3 e4
  have := h2 init lst [] e1
  subst e1
  rw [encProps_append] at e2
  obtain ⟨rfl, e5⟩ := seqRep_prefix (seqRep_enc fun p hp => hpre p (by simp [hp])) e3 e2
  rw [encProps_append, e5, List.length_append] at this
  exact this

theorem stops_enc_inv {ps pre : List Property} {w1 w2 : Bytes} (hf : ∀ p ∈ ps, p.Fits)
    (h : Stops ps (encProps ps) pre w1 w2) :
    ∃ post, ps = pre ++ post ∧ w2 = encProps post ∧ (encProps post).length ≤ subIds pre ∧
      ∀ a q b, pre = a ++ q :: b → subIds a < (encProps (q :: b ++ post)).length := by
  obtain ⟨post, rfl, hpost⟩ := h.props
  have hb := h.bytes
  rw [encProps_append] at hb
  have hpre : SeqRep PropRep pre (encProps pre) := seqRep_enc fun p hp => hf p (by simp [hp])
  obtain ⟨rfl, rfl⟩ := seqRep_prefix hpre h.read hb
  refine ⟨post, rfl, rfl, h.full, fun a q b e => ?_⟩
  have hne : q :: b ≠ [] := by simp
  obtain ⟨m, l, hml⟩ : ∃ m l, q :: b = m ++ [l] := ⟨_, _, (List.dropLast_concat_getLast hne).symm⟩
  have e' : pre = (a ++ m) ++ [l] := by rw [e, hml]; simp
  have hfl : ∀ p ∈ pre, p.Fits := fun p hp => hf p (by simp [hp])
  have hl : PropRep l (encProps [l]) := by
    have : encProps [l] = l.enc := by simp [encProps]
    rw [this]
    exact propRep_enc (hfl l (by rw [e']; simp))
  have := h.first (a ++ m) l (encProps (a ++ m)) (encProps [l]) e'
    (by rw [← encProps_append, ← e'])
    (seqRep_enc fun p hp => hfl p (by rw [e']; simp at hp ⊢; rcases hp with hp | hp <;> simp [hp])) hl
  rw [subIds_append] at this
  have e3 : encProps (q :: b ++ post) = encProps m ++ encProps [l] ++ encProps post := by
    rw [encProps_append, hml, encProps_append]
  rw [e3]
  simp only [List.length_append]
  omega

/-- What is returned for a conforming PUBLISH. -/
theorem publish_read {mode : StrMode} {max : Option Nat} {f : Bytes} {p : Publish}
    {ps pre : List Property} {w1 w2 : Bytes} {n : Nat} (h : Conforms f (.Publish p) ps)
    (hn : RemLen f n) (hm : Admits max n) (hs : Stops ps (encProps ps) pre w1 w2) (r : Bytes) :
    Packet.read mode max (f ++ r) = (.ok (.Publish { p with
      properties := propsOf Spec.PublishProperties.ofList pre
      payload := w2 ++ p.payload }), r) := by
  obtain ⟨b1, flags, bd, ⟨v, hf, hv⟩, h1, h2, hb, -, -⟩ := conforms_frame h
  obtain ⟨b1', v', bd', hf', hv', rfl⟩ := hn
  have hf0 := hf
  rw [hf] at hf'
  simp only [List.cons.injEq] at hf'
  obtain ⟨-, hlen, -⟩ := varintRep_unique hv hv' hf'.2
  rw [← hlen] at hm
  have ht : b1.toNat = 48 + flags := h1
  cases hb with
  | @publish0 _ topic s payload _ h3 h5 h6 =>
    have hb := h6.bytes
    subst hb
    have e : str topic ++ propSection ps ++ payload = str topic ++
        (if (QoS.AtMostOnce) = .AtMostOnce then [] else u16 (0 : UInt16)) ++
        (varint (encProps ps).length ++ encProps ps) ++ payload := by simp [propSection]
    have := C24_publish_exact mode max b1 .AtMostOnce 0 ps pre topic
      (varint (encProps ps).length) (encProps ps) w1 w2 payload f r
      ⟨v, by rw [← e]; exact hf0, by rw [← e]; exact hv⟩ (by omega) (by rw [← e]; exact hm)
      (by rw [ht]; show 0 = _; omega) (by simp) ⟨(Target5.text h5).1, fun _ => (Target5.text h5).2.1⟩ (varint_rep h6.length) h6.ok hs
    rw [this]
    have d1 : decide (b1.toNat / 8 % 2 = 1) = false := by rw [decide_eq_false_iff_not]; omega
    have d2 : b1.toNat % 2 = flags := by omega
    rw [d1, d2]
  | @publish _ q pkid topic s payload _ h3 h4 hq hi h5 h6 =>
    have hb := h6.bytes
    subst hb
    have e : str topic ++ u16 pkid ++ propSection ps ++ payload = str topic ++
        (if q = .AtMostOnce then [] else u16 pkid) ++
        (varint (encProps ps).length ++ encProps ps) ++ payload := by simp [propSection, hq]
    have := C24_publish_exact mode max b1 q pkid ps pre topic
      (varint (encProps ps).length) (encProps ps) w1 w2 payload f r
      ⟨v, by rw [← e]; exact hf0, by rw [← e]; exact hv⟩ (by omega) (by rw [← e]; exact hm)
      (by omega) (by simp [hq, hi]) ⟨(Target5.text h5).1, fun _ => (Target5.text h5).2.1⟩ (varint_rep h6.length) h6.ok hs
    rw [this]
    have d1 : b1.toNat / 8 % 2 = flags / 8 := by omega
    have d2 : b1.toNat % 2 = flags % 2 := by omega
    rw [d1, d2]

theorem publish_fits {f : Bytes} {p : Publish} {ps : List Property}
    (h : Conforms f (.Publish p) ps) : ∀ q ∈ ps, q.Fits := by
  obtain ⟨_, _, hb, -, -⟩ := h
  cases hb with
  | publish0 _ _ h => exact fun q hq => Value5.fits (h.values q hq)
  | publish _ _ _ _ _ h => exact fun q hq => Value5.fits (h.values q hq)

/-- C66: for every frame that conforms to MQTT 5 the user is given exactly what `Seen` says, whatever
follows, and what follows is left. -/
theorem C66_frame (mode : StrMode) (max : Option Nat) (f r : Bytes) (p : Packet)
    (ps : List Property) (n : Nat) (o : Out Packet) (h : Conforms f p ps) (hn : RemLen f n)
    (hm : Admits max n) : Packet.read mode max (f ++ r) = (o, r) ↔ Seen mode f p ps o := by
  obtain ⟨k1, k2, k3⟩ := C40_conforming_iff mode max f r p ps n h hn hm
  have fwd : ∀ o, Seen mode f p ps o → Packet.read mode max (f ++ r) = (o, r) := by
    intro o ho
    cases ho with
    | same hs => exact k1.2 hs
    | disconnect h3 => exact k2 _ rfl (fun hs => hs h3)
    | connect ht => exact k3 _ _ _ rfl ht
    | publish _ h1 h2 =>
      exact publish_read h hn hm (stops_enc (publish_fits h) h1 h2) r
  refine ⟨fun ho => ?_, fwd o⟩
  have key : ∃ o', Seen mode f p ps o' := by
    by_cases hs : Supported mode f p ps
    · exact ⟨_, .same hs⟩
    · cases p with
      | Disconnect d => exact ⟨_, .disconnect (Classical.byContradiction fun h => hs h)⟩
      | Connect c w l =>
        cases l with
        | none => exact absurd trivial hs
        | some l => exact ⟨_, .connect hs⟩
      | Publish p =>
        have hfits := publish_fits h
        obtain ⟨pre, w1, w2, _, hst, -⟩ := stops_exists (seqRep_enc hfits)
        obtain ⟨post, rfl, rfl, h1, h2⟩ := stops_enc_inv hfits hst
        refine ⟨_, .publish ?_ h1 h2⟩
        rintro rfl
        refine hs (k1.1 ?_)
        rw [publish_read h hn hm hst r]
        have : p.properties = propsOf Spec.PublishProperties.ofList (pre ++ []) := by
          obtain ⟨_, _, hb, -, -⟩ := h
          cases hb <;> rfl
        rw [List.append_nil] at this
        rw [← this]
        rfl
      | _ => exact absurd trivial hs
  obtain ⟨o', ho'⟩ := key
  have := (fwd o' ho').symm.trans ho
  simp only [Prod.mk.injEq] at this
  rw [← this.1]
  exact ho'

/-- C66: the whole stream of a peer who keeps to MQTT 5, in whatever pieces it arrives: there is one
result for each frame, in order, which is the one that `Seen` says, and nothing is left. -/
theorem C66_stream (mode : StrMode) (max : Option Nat)
    (sent : List (Bytes × Packet × List Property))
    (h : ∀ x ∈ sent, Conforms x.1 x.2.1 x.2.2 ∧ ∃ n, RemLen x.1 n ∧ Admits max n)
    (chunks : List Bytes) (hc : chunks.flatten = (sent.map (·.1)).flatten)
    (os : List (Out Packet)) (r : Bytes) (hf : Feeds mode max [] chunks os r) :
    r = [] ∧ os.length = sent.length ∧
      ∀ x o, (x, o) ∈ sent.zip os → Seen mode x.1 x.2.1 x.2.2 o := by
  have hd := (C17_chunks mode max chunks).2 os r hf
  rw [hc] at hd
  have hd' : Drains mode max (sent.map (·.1)).flatten
      ((sent.map (·.1)).map fun f => (Packet.read mode max f).1) [] := by
    refine (C61_frames_iff mode max _ [] _).2 ⟨sent.map (·.1), by simp, ?_, rfl, ?_⟩
    · intro f hf
      obtain ⟨x, hx, rfl⟩ := List.mem_map.1 hf
      exact (h x hx).2
    · rintro ⟨f, n, s, e, ⟨b1, v, bd, rfl, -⟩, -⟩
      simp at e
  obtain ⟨_, _, -, hu⟩ := C17_drain_unique mode max (sent.map (·.1)).flatten
  obtain ⟨e1, e2⟩ := hu _ _ hd
  obtain ⟨e3, e4⟩ := hu _ _ hd'
  have eos : os = sent.map fun x => (Packet.read mode max x.1).1 := by
    rw [e1, ← e3, List.map_map]; rfl
  refine ⟨by rw [e2, ← e4], by simp [eos], ?_⟩
  intro x o hx
  subst eos
  have hx' : x ∈ sent ∧ o = (Packet.read mode max x.1).1 := by
    clear h hc hf hd hd' hu e1 e3
    induction sent with
    | nil => simp at hx
    | cons y ys ih =>
      simp only [List.map_cons, List.zip_cons_cons, List.mem_cons, Prod.mk.injEq] at hx
      rcases hx with ⟨rfl, rfl⟩ | hx
      · exact ⟨by simp, rfl⟩
      · obtain ⟨a, b⟩ := ih hx
        exact ⟨by simp [a], b⟩
  obtain ⟨hx1, rfl⟩ := hx'
  obtain ⟨hcf, n, hn, hm⟩ := h x hx1
  refine (C66_frame mode max x.1 [] _ _ n _ hcf hn hm).1 ?_
  have := C14_frame_consumed mode max x.1 [] n hn hm
  exact Prod.ext (by simp) this

/-- A PUBLISH with three subscription identifiers. -/
def threeIds : Bytes := [0x30, 11, 0, 1, 0x61, 6, 0x0B, 1, 0x0B, 2, 0x0B, 3, 0xDE]

theorem threeIds_conforms : ∃ p ps, Conforms threeIds p ps := by
  have e : encProps [.subscriptionIdentifier 1, .subscriptionIdentifier 2,
      .subscriptionIdentifier 3] = [0x0B, 1, 0x0B, 2, 0x0B, 3] := by decide +kernel
  have h1 := Body5.publish0 (flags := 0) (topic := [0x61]) (s := [6, 0x0B, 1, 0x0B, 2, 0x0B, 3])
    (payload := [0xDE])
    (ps := [.subscriptionIdentifier 1, .subscriptionIdentifier 2, .subscriptionIdentifier 3])
    (by decide) (.inl name_a)
    ⟨by decide +kernel, by rw [e]; decide, by
      simp only [List.mem_cons, List.not_mem_nil, or_false, forall_eq_or_imp, forall_eq]
      exact ⟨by decide, by decide, by decide⟩, by
      simp only [List.mem_cons, List.not_mem_nil, or_false, forall_eq_or_imp, forall_eq]
      exact ⟨⟨by decide, by decide⟩, ⟨by decide, by decide⟩, ⟨by decide, by decide⟩⟩, by
      intro k hk
      have : ¬ (0x0B : UInt8) = k := by rintro rfl; simp at hk
      simp [Property.id, this]⟩
  exact ⟨_, _, 0, _, h1 (by simp [Payload5]), by decide, by decide +kernel⟩

/-- The hypotheses can be met: a PUBLISH with three subscription identifiers (of which the third is
found in the payload), a DISCONNECT without property length (refused), and a PINGREQ behind them,
which is delivered. -/
example : ∃ sent : List (Bytes × Packet × List Property),
    (∀ x ∈ sent, Conforms x.1 x.2.1 x.2.2 ∧ ∃ n, RemLen x.1 n ∧ Admits none n) ∧
    (sent.map (·.1)).flatten = threeIds ++ ([0xE0, 1, 0x89] ++ [0xC0, 0]) := by
  obtain ⟨p, ps, c1⟩ := threeIds_conforms
  have c2 : Conforms [0xE0, 1, 0x89] _ _ :=
    ⟨0, _, .disconnect1 (rc := .ServerBusy), by decide, by decide +kernel⟩
  have c3 : Conforms [0xC0, 0] _ _ := ⟨0, _, .pingReq, by decide, by decide +kernel⟩
  refine ⟨[(_, _, _), (_, _, _), (_, _, _)], List.forall_mem_cons.2 ⟨⟨c1, 11, ?_, by simp [Admits]⟩,
    List.forall_mem_cons.2 ⟨⟨c2, 1, ?_, by simp [Admits]⟩, List.forall_mem_cons.2 ⟨⟨c3, 0, ?_, by simp [Admits]⟩, by simp⟩⟩⟩,
    rfl⟩
  · exact ⟨0x30, [11], _, rfl, varintRep_small 11 (by decide), rfl⟩
  · exact ⟨0xE0, [1], _, rfl, varintRep_small 1 (by decide), rfl⟩
  · exact ⟨0xC0, [0], _, rfl, varintRep_small 0 (by decide), rfl⟩

example : Feeds .utf8 none []
    [[0x30, 11, 0, 1, 0x61, 6, 0x0B, 1, 0x0B, 2, 0x0B], [3, 0xDE, 0xE0, 1, 0x89, 0xC0], [0]]
    [.ok (.Publish {
        dup := false, qos := .AtMostOnce, retain := false, topic := [0x61], pkid := 0,
        payload := [0x0B, 3, 0xDE], properties := propsOf Spec.PublishProperties.ofList
          [.subscriptionIdentifier 1, .subscriptionIdentifier 2] }),
      .err (.InsufficientBytes 1), .ok .PingReq] [] :=
  .cons (os1 := []) (.stop (by decide +kernel))
    (.cons (os1 := [_, _]) (b1 := [0xC0])
      (.step (b1 := [0xE0, 1, 0x89, 0xC0]) (by decide +kernel) (by decide)
        (.step (b1 := [0xC0]) (by decide +kernel) (by decide) (.stop (by decide +kernel))))
      (.cons (os1 := [_]) (b1 := []) (.step (b1 := []) (by decide +kernel) (by decide)
        (.stop (by decide +kernel))) (.nil _)))

end Props
