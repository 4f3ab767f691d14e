import Verif.Spec.Trim
import Verif.Props.Deliver
import Verif.Props.Layout
import Verif.Props.Reply
/-
C73: leaving out reason strings and user properties.
-/
namespace Props

open Mqtt Spec

theorem encProps_sublist {l l' : List Property} (h : List.Sublist l' l) :
    (encProps l').length ≤ (encProps l).length := by
  induction h with
  | slnil => simp
  | cons a _ ih =>
    rw [← List.singleton_append, encProps_append_length]; omega
  | @cons_cons l1 l2 a _ ih =>
    rw [← List.singleton_append, ← List.singleton_append (l := l2), encProps_append_length,
      encProps_append_length]
    omega

theorem propSection_sublist {l l' : List Property} (h : List.Sublist l' l) :
    (propSection l').length ≤ (propSection l).length := by
  have h1 := encProps_sublist h
  have h2 := varint_length_mono h1
  simp only [propSection, List.length_append]
  omega

theorem trim_connAck (q : ConnAckProperties) :
    List.Sublist (Spec.ConnAckProperties.toList { q with reason_string := none, user_properties := [] })
      (Spec.ConnAckProperties.toList q) := by
  unfold Spec.ConnAckProperties.toList
  repeat' apply List.Sublist.append
  all_goals first
    | exact List.Sublist.refl _
    | exact List.nil_sublist _

theorem trim_disconnect (q : DisconnectProperties) :
    List.Sublist (Spec.DisconnectProperties.toList { q with reason_string := none, user_properties := [] })
      (Spec.DisconnectProperties.toList q) := by
  unfold Spec.DisconnectProperties.toList
  repeat' apply List.Sublist.append
  all_goals first
    | exact List.Sublist.refl _
    | exact List.nil_sublist _

theorem optSection_sublist {α : Type} {toList : α → List Property} {o : Option α} {f : α → α}
    (h : ∀ q, List.Sublist (toList (f q)) (toList q)) :
    (optSection toList (o.map f)).length ≤ (optSection toList o).length := by
  cases o with
  | none => exact Nat.le_refl _
  | some q => exact propSection_sublist (h q)

theorem ackTail_sublist {α : Type} {code : UInt8} {toList : α → List Property} {o : Option α}
    {f : α → α} (h : ∀ q, List.Sublist (toList (f q)) (toList q)) :
    (ackTail code toList (o.map f)).length ≤ (ackTail code toList o).length := by
  cases o with
  | none => exact Nat.le_refl _
  | some q => exact Nat.add_le_add_right (propSection_sublist (h q)) 1

theorem optList_sublist {α : Type} {toList : α → List Property} {o : Option α} {f : α → α}
    (h : ∀ q, List.Sublist (toList (f q)) (toList q)) :
    List.Sublist (optList toList (o.map f)) (optList toList o) := by
  cases o with
  | none => exact List.Sublist.refl _
  | some q => exact h q

theorem trim_props (p : Packet) : List.Sublist (props (trim p)) (props p) := by
  cases p with
  | ConnAck p => exact optList_sublist trim_connAck
  | Disconnect p => exact optList_sublist trim_disconnect
  | PubAck p => exact optList_sublist fun _ => List.nil_sublist _
  | PubRec p => exact optList_sublist fun _ => List.nil_sublist _
  | PubRel p => exact optList_sublist fun _ => List.nil_sublist _
  | PubComp p => exact optList_sublist fun _ => List.nil_sublist _
  | SubAck p => exact optList_sublist fun _ => List.nil_sublist _
  | UnsubAck p => exact optList_sublist fun _ => List.nil_sublist _
  | _ => exact List.Sublist.refl _

theorem trim_body (p : Packet) : (body (trim p)).length ≤ (body p).length := by
  cases p with
  | ConnAck p =>
    have := optSection_sublist (o := p.properties) trim_connAck
    simp only [body, trim, List.length_append]; omega
  | Disconnect p => exact ackTail_sublist trim_disconnect
  | PubAck p =>
    have := ackTail_sublist (code := pubAckCode p.reason) (o := p.properties)
      (toList := Spec.PubAckProperties.toList)
      (f := fun q => { q with reason_string := none, user_properties := [] })
      fun _ => List.nil_sublist _
    simp only [body, trim, List.length_append]; omega
  | PubRec p =>
    have := ackTail_sublist (code := pubRecCode p.reason) (o := p.properties)
      (toList := Spec.PubRecProperties.toList)
      (f := fun q => { q with reason_string := none, user_properties := [] })
      fun _ => List.nil_sublist _
    simp only [body, trim, List.length_append]; omega
  | PubRel p =>
    have := ackTail_sublist (code := pubRelCode p.reason) (o := p.properties)
      (toList := Spec.PubRelProperties.toList)
      (f := fun q => { q with reason_string := none, user_properties := [] })
      fun _ => List.nil_sublist _
    simp only [body, trim, List.length_append]; omega
  | PubComp p =>
    have := ackTail_sublist (code := pubCompCode p.reason) (o := p.properties)
      (toList := Spec.PubCompProperties.toList)
      (f := fun q => { q with reason_string := none, user_properties := [] })
      fun _ => List.nil_sublist _
    simp only [body, trim, List.length_append]; omega
  | SubAck p =>
    have := optSection_sublist (o := p.properties) (toList := Spec.SubAckProperties.toList)
      (f := fun q => { q with reason_string := none, user_properties := [] })
      fun _ => List.nil_sublist _
    simp only [body, trim, List.length_append]; omega
  | UnsubAck p =>
    have := optSection_sublist (o := p.properties) (toList := Spec.UnsubAckProperties.toList)
      (f := fun q => { q with reason_string := none, user_properties := [] })
      fun _ => List.nil_sublist _
    simp only [body, trim, List.length_append]; omega
  | _ => exact Nat.le_refl _

theorem trim_encodable {p : Packet} (h : Encodable p) : Encodable (trim p) := by
  refine ⟨?_, fun q hq => h.2.1 q ((trim_props p).subset hq), Nat.le_trans (trim_body p) h.2.2.1, ?_⟩
  · have := h.1
    cases p <;> exact this
  · have := h.2.2.2
    cases p <;> exact this

theorem trim_lossy (p : Packet) : Lossy (trim p) ↔ BareDisconnect p := by
  cases p with
  | Disconnect p =>
    cases hq : p.properties with
    | none => simp [Lossy, trim, BareDisconnect, hq, optList]
    | some q =>
      simp [Lossy, trim, BareDisconnect, hq, optList, Spec.DisconnectProperties.toList, one, users,
        and_comm]
  | _ => simp [Lossy, trim, BareDisconnect]

/-- C73: whatever `write` accepts it also accepts without reason string and user properties, and
then reports at most as many bytes. -/
theorem C73_written (p : Packet) (b b' : Bytes) (k : Nat) (h : p.write b = (.ok k, b'))
    (buf : Bytes) : ∃ k' buf', (trim p).write buf = (.ok k', buf') ∧ k' ≤ k := by
  have he := encodable_of_ok h
  obtain ⟨k', buf', h'⟩ := (C20_ok_iff (trim p) buf).2 (trim_encodable he)
  refine ⟨k', buf', h', ?_⟩
  by_cases hc : IsConnect p
  · have ht : trim p = p := by cases p <;> first | rfl | exact False.elim hc
    rw [ht] at h'
    obtain ⟨-, -, rfl, -⟩ := (C49_ok _ _ _ _).1 h
    obtain ⟨-, -, rfl, -⟩ := (C49_ok _ _ _ _).1 h'
    exact Nat.le_refl _
  have hc' : ¬ IsConnect (trim p) := by cases p <;> first | exact hc | exact id
  by_cases hs : Sound (trim p)
  · have hs' : Sound p := by
      cases p with
      | Disconnect d =>
        cases hq : d.properties with
        | none => simpa [Sound, trim, hq] using hs
        | some q =>
          simp only [Sound, trim, hq, Option.map_some] at hs ⊢
          intro h0
          exact hs (List.sublist_nil.1 (h0 ▸ trim_disconnect q))
      | _ => trivial
    obtain ⟨-, rfl, -⟩ := write_ok_inv h hs' fun h => absurd h hc
    obtain ⟨-, rfl, -⟩ := write_ok_inv h' hs fun h => absurd h hc'
    have h1 := trim_body p
    have h2 := varint_length_mono h1
    simp only [encode, frame, List.length_cons, List.length_append]
    omega
  · cases p with
    | Disconnect d =>
      cases hq : d.properties with
      | none =>
        have ht : trim (.Disconnect d) = .Disconnect d := by
          cases d; simp_all [trim]
        rw [ht] at h'
        obtain ⟨-, -, rfl, -⟩ := (C49_ok _ _ _ _).1 h
        obtain ⟨-, -, rfl, -⟩ := (C49_ok _ _ _ _).1 h'
        exact Nat.le_refl _
      | some q =>
        have h0 : Spec.DisconnectProperties.toList
            { q with reason_string := none, user_properties := [] } = [] := by
          simpa [Sound, trim, hq] using hs
        have h1 := (C08_disconnect_empty_properties
          { d with properties := d.properties.map fun q =>
              { q with reason_string := none, user_properties := [] } }
          { q with reason_string := none, user_properties := [] } (by rw [hq]; rfl) h0
          .utf8 none buf []).1
        have h2 := h'.symm.trans h1
        simp only [Prod.mk.injEq, Out.ok.injEq] at h2
        obtain ⟨-, -, rfl, -⟩ := (C49_ok _ _ _ _).1 h
        have : 1 ≤ (varint (announced (.Disconnect d))).length := by rw [varint]; split <;> simp
        omega
    | _ => exact absurd trivial hs

/-- C73: and if the packet survives writing and reading on its own, so it does without them, exactly
if it is not a DISCONNECT with a reason and nothing else to tell. -/
theorem C73_survives_iff (mode : StrMode) (p : Packet) (h : SurvivesAlone mode none p) :
    SurvivesAlone mode none (trim p) ↔ ¬ BareDisconnect p := by
  obtain ⟨h1, h2, h3, -⟩ := (C12_survives_iff mode p).1 h
  rw [C12_survives_iff, trim_lossy]
  refine ⟨fun h => h.2.2.2, fun h => ⟨trim_encodable h1, ?_, ?_, h⟩⟩
  · refine ⟨?_, fun q hq => h2.2 q ((trim_props p).subset hq)⟩
    have := h2.1
    cases p <;> exact this
  · cases p <;> exact h3

/-- The exception is real: a DISCONNECT with reason 0x8D and a reason string loses its reason with
the reason string. -/
theorem C73_exception :
    let q : DisconnectProperties := {
      session_expiry_interval := none, reason_string := some [0x78], user_properties := []
      server_reference := none }
    let d : Disconnect := { reason_code := .KeepAliveTimeout, properties := some q }
    SurvivesAlone .utf8 none (.Disconnect d) ∧ BareDisconnect (.Disconnect d) ∧
    (trim (.Disconnect d)).write [] = (.ok 2, [0xE0, 0]) ∧
    Packet.read .utf8 none [0xE0, 0] =
      (.ok (.Disconnect { reason_code := .NormalDisconnection, properties := none }), []) :=
  ⟨⟨8, [0xE0, 6, 0x8D, 4, 0x1F, 0, 1, 0x78], by decide +kernel, by decide +kernel⟩,
    ⟨by decide, by simp⟩, by decide +kernel, by decide +kernel⟩

/-- C73: so the answers of the QoS exchanges can always be given: without reason string and user
properties they take at most 6 bytes, and every receiver whose limit is at least 4 reads them, with
packet identifier and reason unchanged, whatever follows. -/
theorem C73_acks (mode : StrMode) (p : Packet) (ha : IsAck p) (m : Nat) (hm : 4 ≤ m)
    (buf r : Bytes) : ∃ w, (trim p).write buf = (.ok w.length, buf ++ w) ∧ w.length ≤ 6 ∧
      Packet.read mode (some m) (w ++ r) = (.ok (match p with
        | .PubAck p => .PubAck { p with properties := none }
        | .PubRec p => .PubRec { p with properties := none }
        | .PubRel p => .PubRel { p with properties := none }
        | .PubComp p => .PubComp { p with properties := none }
        | p => p), r) := by
  have key : Encodable (trim p) ∧ StringsOk mode (trim p) ∧ (body (trim p)).length ≤ 4 ∧
      Readable (trim p) ∧ Sound (trim p) ∧ ¬ IsConnect (trim p) := by
    have hl : ∀ {α : Type} (c : UInt8) (toList : α → List Property) (o : Option α) (f : α → α),
        (∀ q, toList (f q) = []) → (ackTail c toList (o.map f)).length ≤ 2 := by
      intro α c toList o f h
      cases o with
      | none => exact ackTail_none_length c toList
      | some q =>
        show (c :: propSection (toList (f q))).length ≤ 2
        rw [h, propSection_nil]; simp
    have hl' : ∀ {α : Type} (toList : α → List Property) (o : Option α) (f : α → α),
        (∀ q, toList (f q) = []) → optList toList (o.map f) = [] := by
      intro α toList o f h
      cases o with
      | none => rfl
      | some q => exact h q
    have hp : props (trim p) = [] := by
      cases p <;> first | exact False.elim ha | exact hl' _ _ _ fun _ => rfl
    have hb : (body (trim p)).length ≤ 4 := by
      cases p <;> first
        | exact False.elim ha
        | (simp only [body, trim, List.length_append, u16_length]
           exact Nat.add_le_add_left (hl _ _ _ _ fun _ => rfl) 2)
    have ht : texts (trim p) = [] ∧ fields (trim p) = [] := by
      cases p <;> first | exact False.elim ha | exact ⟨rfl, rfl⟩
    refine ⟨⟨by simp [ht.2], by simp [hp], by unfold maxVarint; omega, ?_⟩,
      ⟨by simp [ht.1], by simp [hp]⟩, hb, ?_, ?_, ?_⟩
    all_goals cases p <;> first | exact False.elim ha | trivial | exact id
  obtain ⟨h1, h2, h3, h4, h5, h6⟩ := key
  refine ⟨_, write_encode h1 h5 fun h => absurd h h6, ?_, ?_⟩
  · have : (varint (body (trim p)).length).length = 1 := by rw [varint, if_pos (by omega)]; rfl
    simp only [encode, frame, List.length_cons, List.length_append]
    omega
  · rw [read_encode h1 h2 h4 (by intro _ e; cases e; omega) r]
    have hn : ∀ {α : Type} (toList : α → List Property) (o : Option α) (f : α → α),
        (∀ q, toList (f q) = []) → normProps toList (o.map f) = none := by
      intro α toList o f h
      cases o with
      | none => rfl
      | some q => simp [normProps, h]
    cases p <;> first
      | exact False.elim ha
      | (simp only [trim, norm]; rw [hn _ _ _ fun _ => rfl])

end Props
