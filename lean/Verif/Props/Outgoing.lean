import Verif.Spec.Outgoing
import Verif.Props.Peer
import Verif.Props.Pipeline
import Verif.Proofs.Inject
/-
C67: what a peer who reads MQTT 5 strictly sees of the packets that are sent with this library.
-/
namespace Props

open Mqtt Spec

theorem publish_body {flags : Nat} {bd : Bytes} {p : Publish} {ps : List Property}
    (h : Body5 flags bd (.Publish p) ps) :
    ∃ s, Section5 Spec.PublishProperties.allowed [0x26, 0x0B] ps s ∧ Text5 p.topic ∧
      p.dup = decide (flags / 8 = 1) ∧ p.retain = decide (flags % 2 = 1) ∧
      qosNum p.qos = flags / 2 % 4 ∧ (p.qos = .AtMostOnce → p.pkid = 0) ∧
      p.properties = propsOf Spec.PublishProperties.ofList ps ∧
      bd = str p.topic ++ (if p.qos = .AtMostOnce then [] else u16 p.pkid) ++ s ++ p.payload := by
  cases h with
  | publish0 h1 h3 h4 =>
    have hf : flags = 0 ∨ flags = 1 := by omega
    exact ⟨_, h4, Target5.text h3, by rcases hf with rfl | rfl <;> rfl, by rcases hf with rfl | rfl <;> rfl,
      by rcases hf with rfl | rfl <;> rfl, fun _ => rfl, rfl, by simp⟩
  | publish h1 h2 h3 h4 h5 h6 =>
    exact ⟨_, h6, Target5.text h5, rfl, rfl, h2.symm, fun h => absurd h h3, rfl, by simp [h3]⟩

theorem qosNum_inj {q q' : QoS} (h : qosNum q = qosNum q') : q = q' := by
  revert h; cases q <;> cases q' <;> simp [qosNum]

theorem publish_body_unique {flags : Nat} {bd : Bytes} {p p' : Publish} {ps ps' : List Property}
    (h : Body5 flags bd (.Publish p) ps) (h' : Body5 flags bd (.Publish p') ps') : p = p' := by
  obtain ⟨s, h1, h2, h3, h4, h5, h6, h7, h8⟩ := publish_body h
  obtain ⟨s', h1', h2', h3', h4', h5', h6', h7', h8'⟩ := publish_body h'
  have b1 := h1.bytes
  have b2 := h1'.bytes
  subst b1 b2
  have hq : p.qos = p'.qos := qosNum_inj (h5.trans h5'.symm)
  rw [h8] at h8'
  simp only [List.append_assoc] at h8'
  obtain ⟨ht, e⟩ := str_append_inj h2.1 h2'.1 h8'
  have hi : p.pkid = p'.pkid ∧ propSection ps ++ p.payload = propSection ps' ++ p'.payload := by
    rw [hq] at e
    by_cases hz : p'.qos = .AtMostOnce
    · rw [if_pos hz, if_pos hz] at e
      exact ⟨(h6 (hq.trans hz)).trans (h6' hz).symm, e⟩
    · rw [if_neg hz, if_neg hz] at e
      exact u16_append_inj e
  obtain ⟨hps, hd⟩ := propSection_inj hi.2 (fun p hp => Value5.fits (h1.values p hp))
    (fun p hp => Value5.fits (h1'.values p hp)) h1.length h1'.length
  have h9 : p.properties = p'.properties := by rw [h7, h7', hps]
  have h10 := h3.trans h3'.symm
  have h11 := h4.trans h4'.symm
  have h12 := hi.1
  cases p; cases p'
  simp only at h9 h10 h11 h12 hq ht hd
  subst h9 h10 h11 h12 hq ht hd
  rfl

/-- A conforming frame at the beginning of a stream, and the packet it stands for, are unique. -/
theorem conforms_unique {f f' r r' : Bytes} {p p' : Packet} {ps ps' : List Property}
    (h : Conforms f p ps) (h' : Conforms f' p' ps') (e : f ++ r = f' ++ r') :
    f = f' ∧ r = r' ∧ p = p' := by
  obtain ⟨flags, bd, hb, hl, hf⟩ := id h
  obtain ⟨flags', bd', hb', hl', hf'⟩ := id h'
  rw [hf, hf'] at e
  simp only [List.cons_append, List.append_assoc, List.cons.injEq] at e
  obtain ⟨e1, e2⟩ := e
  obtain ⟨-, e3, e4⟩ := varintRep_unique (varint_rep hl) (varint_rep hl') e2
  obtain ⟨rfl, rfl⟩ := List.append_inj e4 e3
  have t1 := body5_flags hb
  have t2 := body5_flags hb'
  have e5 := congrArg UInt8.toNat e1
  rw [ofNat_small (by omega), ofNat_small (by omega)] at e5
  have et : typeNum p = typeNum p' := by omega
  have ef : flags = flags' := by omega
  subst ef
  have eff : f = f' := by rw [hf, hf', et]
  subst eff
  refine ⟨rfl, rfl, ?_⟩
  obtain ⟨n, hn⟩ : ∃ n, RemLen f n := by rw [hf]; exact ⟨_, _, _, _, rfl, varint_rep hl, rfl⟩
  have ha : Admits none n := by simp [Admits]
  obtain ⟨k1, k2, -⟩ := C40_conforming_iff .binary none f [] p ps n h hn ha
  obtain ⟨k1', k2', -⟩ := C40_conforming_iff .binary none f [] p' ps' n h' hn ha
  have both : Supported .binary f p ps → Supported .binary f p' ps' → p = p' := by
    intro s1 s2
    have := (k1.2 s1).symm.trans (k1'.2 s2)
    simpa using this
  have sup : ∀ {q : Packet} {qs : List Property}, (∀ d, q ≠ .Disconnect d) →
      (∀ x, q ≠ .Publish x) → Supported .binary f q qs := by
    intro q qs d1 d2
    cases q with
    | Disconnect d => exact absurd rfl (d1 d)
    | Publish x => exact absurd rfl (d2 x)
    | Connect c w l => cases l with
      | none => trivial
      | some l => exact fun h => by cases h
    | _ => trivial
  by_cases hp : ∃ x, p = .Publish x
  · obtain ⟨x, rfl⟩ := hp
    cases p' with
    | Publish y => rw [publish_body_unique hb hb']
    | _ => simp [typeNum] at et
  · by_cases hd : ∃ d, p = .Disconnect d
    · obtain ⟨d, rfl⟩ := hd
      cases p' with
      | Disconnect d' =>
        by_cases h3 : f.length = 3
        · obtain ⟨_, _, _, ⟨v1, g1, w1⟩, -, -, -, i3, -⟩ := conforms_frame h
          have hb1 : bd.length ≤ 1 := by
            have := varint_length_pos bd.length
            rw [hf] at h3
            simp only [List.length_cons, List.length_append] at h3
            omega
          have hb0 : bd ≠ [] := by
            rintro rfl
            rw [hf] at h3
            have hv : varint 0 = [0] := by rw [varint, if_pos (by omega)]; rfl
            simp [hv] at h3
          have inv : ∀ {d : Disconnect} {qs : List Property}, Body5 flags bd (.Disconnect d) qs →
              ∃ rc, bd = [disconnectCode rc] ∧ d = { reason_code := rc, properties := none } := by
            intro d qs hb
            cases hb with
            | disconnect0 => exact absurd rfl hb0
            | disconnect1 => exact ⟨_, rfl, rfl⟩
            | disconnect hs =>
              have := varint_length_pos (encProps qs).length
              rw [hs.bytes] at hb1
              simp only [propSection, List.length_append, List.length_singleton] at hb1
              omega
          obtain ⟨rc, i1, rfl⟩ := inv hb
          obtain ⟨rc', i2, rfl⟩ := inv hb'
          have : rc = rc' := by
            rw [i1] at i2
            simp only [List.cons.injEq, and_true] at i2
            revert i2; cases rc <;> cases rc' <;> decide
          rw [this]
        · exact both h3 h3
      | _ => simp [typeNum] at et
    · refine both (sup (fun d e => hd ⟨d, e⟩) (fun d e => hp ⟨d, e⟩)) (sup ?_ ?_)
      · rintro d rfl
        cases p with
        | Disconnect d => exact hd ⟨d, rfl⟩
        | _ => simp [typeNum] at et
      · rintro d rfl
        cases p with
        | Publish d => exact hp ⟨d, rfl⟩
        | _ => simp [typeNum] at et

/-- C67: MQTT 5 leaves no choice: a stream stands for at most one sequence of packets. -/
theorem C67_unique (s : Bytes) (ps qs : List Packet) (h : Stream5 s ps) (h' : Stream5 s qs) :
    ps = qs := by
  induction h generalizing qs with
  | nil =>
    generalize hs : ([] : Bytes) = s at h'
    cases h' with
    | nil => rfl
    | cons h1 _ =>
      obtain ⟨_, _, -, -, rfl⟩ := h1
      simp at hs
  | @cons f s p _ ps h1 h2 ih =>
    generalize hs : f ++ s = s' at h'
    cases h' with
    | nil =>
      obtain ⟨_, _, -, -, rfl⟩ := h1
      simp at hs
    | cons h1' h2' =>
      obtain ⟨rfl, rfl, rfl⟩ := conforms_unique h1 h1' hs
      rw [ih _ h2']

theorem stream5_zero {s : Bytes} {ps : List Packet} (h : Stream5 (0 :: s) ps) : False := by
  generalize hs : 0 :: s = s' at h
  cases h with
  | nil => simp at hs
  | @cons f s p ps qs h1 h2 =>
    obtain ⟨b1, flags, bd, ⟨v, rfl, -⟩, e, -, -⟩ := conforms_frame h1
    simp only [List.cons_append, List.cons.injEq] at hs
    have := hs.1
    subst this
    simp only [UInt8.toNat_zero] at e
    have pos : ∀ p : Packet, 1 ≤ typeNum p := by intro p; cases p <;> simp [typeNum]
    have := pos p
    omega

theorem parts_iff {ws : List (Packet × Bytes)} (hw : ∀ x ∈ ws, ∃ n, x.1.write [] = (.ok n, x.2))
    (hv : ∀ x ∈ ws, Values5 x.1) :
    Stream5 (ws.map (·.2)).flatten (ws.map fun x => norm x.1) ↔ ∀ x ∈ ws, ¬ Lossy x.1 := by
  induction ws with
  | nil => simp only [List.map_nil, List.flatten_nil, List.not_mem_nil, false_implies, implies_true,
      iff_true]; exact .nil
  | cons x ws ih =>
    obtain ⟨n, hx⟩ := hw x (.head _)
    have ih := ih (fun y hy => hw y (.tail _ hy)) (fun y hy => hv y (.tail _ hy))
    simp only [List.map_cons, List.flatten_cons]
    have hiff := C43_iff x.1 [] x.2 n hx (hv x (.head _)) (fun _ => rfl)
    constructor
    · intro h
      have hl : ¬ Lossy x.1 := by
        intro hl
        obtain ⟨p, w⟩ := x
        simp only at hx hl h hiff
        cases p with
        | Disconnect d =>
          obtain ⟨l1, l2⟩ := id hl
          have hs : ¬ Sound (.Disconnect d) := by
            intro hs
            cases hd : d.properties with
            | none => simp only [Sound, hd] at hs; exact l2 hs
            | some q => simp only [Sound, hd] at hs; rw [hd] at l1; exact hs l1
          have hn : norm (.Disconnect d) =
              .Disconnect { reason_code := d.reason_code, properties := none } := by
            cases hd : d.properties with
            | none => simp [norm, hd, normProps]
            | some q =>
              rw [hd] at l1
              have l1 : Spec.DisconnectProperties.toList q = [] := l1
              simp [norm, hd, normProps, l1]
          rw [hn] at h
          have c1 : Conforms [0xE0, 1, disconnectCode d.reason_code]
              (.Disconnect { reason_code := d.reason_code, properties := none }) [] := by
            refine ⟨0, _, .disconnect1, by simp [maxVarint], ?_⟩
            show _ = _ :: (varint 1 ++ _)
            rw [varint, if_pos (by omega)]; rfl
          replace hx : d.write [] = _ := hx
          rcases unsound_emits hs with ⟨-, -, hw⟩ | ⟨q, -, -, hw⟩
          · rw [hw []] at hx
            simp only [List.nil_append, Prod.mk.injEq] at hx
            rw [← hx.2] at h
            generalize hg : [0xE0, 1, disconnectCode d.reason_code, 0] ++
              (ws.map (·.2)).flatten = g at h
            cases h with
            | cons c2 h2 =>
              obtain ⟨-, e, -⟩ := conforms_unique c1 c2 (r := 0 :: _) hg
              rw [← e] at h2
              exact stream5_zero h2
          · rw [hw []] at hx
            simp only [List.nil_append, Prod.mk.injEq] at hx
            rw [← hx.2] at h
            have c0 : Conforms [0xE0, 0]
                (.Disconnect { reason_code := .NormalDisconnection, properties := none }) [] := by
              exact ⟨0, _, .disconnect0, by decide, by decide +kernel⟩
            generalize hg : [0xE0, 0] ++ (ws.map (·.2)).flatten = g at h
            cases h with
            | cons c2 h2 =>
              obtain ⟨-, -, e⟩ := conforms_unique c0 c2 hg
              simp only [Packet.Disconnect.injEq, Disconnect.mk.injEq, and_true] at e
              exact l2 e.symm
        | _ => exact hl
      intro y hy
      rcases List.mem_cons.1 hy with rfl | hy
      · exact hl
      · refine ih.1 ?_ y hy
        obtain ⟨f, ps, e, hc⟩ := hiff.2 hl
        rw [List.nil_append] at e
        rw [e] at h
        generalize hg : f ++ _ = g at h
        cases h with
        | cons c2 h2 =>
          obtain ⟨-, e, -⟩ := conforms_unique hc c2 hg
          rw [e]; exact h2
    · intro h
      obtain ⟨f, ps, e, hc⟩ := hiff.2 (h x (.head _))
      rw [List.nil_append] at e
      rw [e]
      exact .cons hc (ih.2 fun y hy => h y (.tail _ hy))

/-- C67: packets within the value rules of MQTT 5 that are written one after the other into a buffer
(CONNECT only as the first) are a stream of MQTT 5 packets, namely of these up to normalisation, if
and only if none of them is a DISCONNECT with a reason and without properties. -/
theorem C67_stream_iff (ps : List Packet) (buf : Bytes) (hw : WriteAll ps [] buf)
    (hv : ∀ p ∈ ps, Values5 p) (hc : ∀ p ∈ ps.tail, ¬ IsConnect p) :
    Stream5 buf (ps.map norm) ↔ ∀ p ∈ ps, ¬ Lossy p := by
  cases hw with
  | nil => simpa using parts_iff (ws := []) (by simp) (by simp)
  | @cons p ps b b1 b2 n h hw =>
    obtain ⟨ws, h1, h2, h3⟩ := writeAll_parts hw hc
    have := parts_iff (ws := (p, b1) :: ws) (by
      intro x hx
      rcases List.mem_cons.1 hx with rfl | hx
      · exact ⟨n, h⟩
      · exact h3 x hx) (by
      subst h1
      intro x hx
      rcases List.mem_cons.1 hx with rfl | hx
      · exact hv _ (.head _)
      · exact hv _ (.tail _ (List.mem_map.2 ⟨x, hx, rfl⟩)))
    subst h1 h2
    simpa [List.map_map, Function.comp_def] using this

/-- C67: and then a peer who reads by the standard sees these packets and nothing else. -/
theorem C67_peer (ps : List Packet) (buf : Bytes) (hw : WriteAll ps [] buf)
    (hv : ∀ p ∈ ps, Values5 p) (hc : ∀ p ∈ ps.tail, ¬ IsConnect p) (hl : ∀ p ∈ ps, ¬ Lossy p)
    (qs : List Packet) : Stream5 buf qs ↔ qs = ps.map norm := by
  have h := (C67_stream_iff ps buf hw hv hc).2 hl
  exact ⟨fun h' => C67_unique buf _ _ h' h, fun e => e ▸ h⟩

/-- The exception is real: a DISCONNECT with a reason and without properties, and behind it nothing,
is not a stream of MQTT 5 packets, whichever packets one may have in mind. -/
theorem C67_exception : WriteAll [Sample.disconnectNone] [] [0xE0, 1, 0x89, 0] ∧
    ∀ qs, ¬ Stream5 [0xE0, 1, 0x89, 0] qs := by
  refine ⟨.cons (n := 3) (by decide +kernel) (.nil _), fun qs h => ?_⟩
  have c1 : Conforms [0xE0, 1, 0x89]
      (.Disconnect { reason_code := .ServerBusy, properties := none }) [] :=
    ⟨0, _, .disconnect1, by decide, by decide +kernel⟩
  generalize hg : ([0xE0, 1, 0x89, 0] : Bytes) = g at h
  cases h with
  | nil => simp at hg
  | cons c2 h2 =>
    obtain ⟨-, e, -⟩ := conforms_unique (r := [0]) c1 c2 hg
    rw [← e] at h2
    exact stream5_zero h2

/-- The hypotheses can be met: a SUBACK with a property record that is empty, and a PUBLISH. -/
example : ∃ ps buf, WriteAll ps [] buf ∧ (∀ p ∈ ps, Values5 p) ∧ (∀ p ∈ ps.tail, ¬ IsConnect p) ∧
    (∀ p ∈ ps, ¬ Lossy p) ∧ ps.map norm ≠ ps ∧ ps.length = 2 := by
  refine ⟨[.SubAck {
      pkid := 7, return_codes := [.Success .AtLeastOnce]
      properties := some { reason_string := none, user_properties := [] } },
    .Publish {
      dup := false, qos := .AtMostOnce, retain := true, topic := [0x61], pkid := 0,
      payload := [1, 2], properties := none }], _,
    .cons (n := 6) (b1 := [0x90, 4, 0, 7, 0, 1]) (by decide +kernel)
      (.cons (n := 8) (b1 := [0x90, 4, 0, 7, 0, 1, 0x31, 6, 0, 1, 0x61, 0, 1, 2])
        (by decide +kernel) (.nil _)), ?_, ?_, ?_, ?_, rfl⟩
  · refine List.forall_mem_cons.2 ⟨⟨?_, by decide, by simp⟩, List.forall_mem_cons.2 ⟨⟨?_, ?_⟩, by simp⟩⟩
    · simp [props, optList, Spec.SubAckProperties.toList, one, users]
    · simp [props, optList]
    · exact ⟨.inl name_a, fun _ => rfl, by simp⟩
  · simp [IsConnect]
  · simp [Lossy]
  · simp [norm, normProps, Spec.SubAckProperties.toList, one, users]

end Props
