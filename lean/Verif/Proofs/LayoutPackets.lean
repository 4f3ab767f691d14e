import Verif.Proofs.Layout
/-
Every writer emits the pieces of its packet's layout.
-/
set_option linter.unusedSimpArgs false

namespace Mqtt

open Spec

variable {σ : Type}

/-- The acknowledgements: how the short form and the long form are chosen. -/
theorem ack_short {c : UInt8} {toList : σ → List Property} {o : Option σ} (h : c = 0 ∧ o = none) :
    ackPieces c toList o = [] := by
  obtain ⟨rfl, rfl⟩ := h
  simp [ackPieces]

theorem ack_long {c : UInt8} {toList : σ → List Property} {o : Option σ} (h : ¬ (c = 0 ∧ o = none)) :
    ackPieces c toList o = .raw [c] :: sectionPieces (optList toList o) := by
  cases o with
  | none =>
    have : c ≠ 0 := fun hc => h ⟨hc, rfl⟩
    simp [ackPieces, this, optList]
  | some p => rfl

theorem announced_size {p : Packet} (h : ¬ Overlong p) : announced p = sizes (bodyPieces p) :=
  if_neg h

theorem PubAck.plays (p : PubAck) : Plays p.write (returned (.PubAck p)) (layout (.PubAck p)) := by
  have hb : bodyPieces (.PubAck p) = .raw (u16 p.pkid) ::
    ackPieces (pubAckCode p.reason) Spec.PubAckProperties.toList p.properties := rfl
  by_cases h : p.reason = .Success ∧ p.properties = none
  · have hs := ack_short (c := pubAckCode p.reason) (toList := Spec.PubAckProperties.toList)
      (o := p.properties) ⟨(PubAck.code_zero _).2 h.1, h.2⟩
    have hl : p.len = 2 := by simp [PubAck.len, h]
    refine plays_frame (p := .PubAck p) rfl (by rw [announced_size id, hb, hs, hl]; rfl) ?_
    rw [hb, hs, if_pos h, hl, show varint 2 = [2] by rw [varint, if_pos (by omega)]; rfl]
    exact Plays.done (plays_u16 _)
  · have hs := ack_long (c := pubAckCode p.reason) (toList := Spec.PubAckProperties.toList)
      (o := p.properties) (by rw [PubAck.code_zero]; exact h)
    have hl : p.len = 2 + 1 + optPropsLen PubAckProperties.len p.properties := by
      simp only [PubAck.len, if_neg h]
    refine plays_frame (p := .PubAck p) rfl ?_ ?_
    · rw [announced_size id, hb, hs, hl, size_opt PubAckProperties.len_eq]
      simp [Piece.size]; omega
    · rw [hb, hs, if_neg h]
      rw [PubAck.code_eq]
      exact Plays.cons (plays_u16 _) (Plays.cons (plays_u8 _)
        (Plays.done (plays_opt PubAckProperties.len_eq PubAckProperties.write_eq _)))

theorem PubRec.plays (p : PubRec) : Plays p.write (returned (.PubRec p)) (layout (.PubRec p)) := by
  have hb : bodyPieces (.PubRec p) = .raw (u16 p.pkid) ::
    ackPieces (pubRecCode p.reason) Spec.PubRecProperties.toList p.properties := rfl
  by_cases h : p.reason = .Success ∧ p.properties = none
  · have hs := ack_short (c := pubRecCode p.reason) (toList := Spec.PubRecProperties.toList)
      (o := p.properties) ⟨(PubRec.code_zero _).2 h.1, h.2⟩
    have hl : p.len = 2 := by simp [PubRec.len, h]
    refine plays_frame (p := .PubRec p) rfl (by rw [announced_size id, hb, hs, hl]; rfl) ?_
    rw [hb, hs, if_pos h, hl, show varint 2 = [2] by rw [varint, if_pos (by omega)]; rfl]
    exact Plays.done (plays_u16 _)
  · have hs := ack_long (c := pubRecCode p.reason) (toList := Spec.PubRecProperties.toList)
      (o := p.properties) (by rw [PubRec.code_zero]; exact h)
    have hl : p.len = 2 + 1 + optPropsLen PubRecProperties.len p.properties := by
      simp only [PubRec.len, if_neg h]
    refine plays_frame (p := .PubRec p) rfl ?_ ?_
    · rw [announced_size id, hb, hs, hl, size_opt PubRecProperties.len_eq]
      simp [Piece.size]; omega
    · rw [hb, hs, if_neg h]
      rw [PubRec.code_eq]
      exact Plays.cons (plays_u16 _) (Plays.cons (plays_u8 _)
        (Plays.done (plays_opt PubRecProperties.len_eq PubRecProperties.write_eq _)))

theorem PubRel.plays (p : PubRel) : Plays p.write (returned (.PubRel p)) (layout (.PubRel p)) := by
  have hb : bodyPieces (.PubRel p) = .raw (u16 p.pkid) ::
    ackPieces (pubRelCode p.reason) Spec.PubRelProperties.toList p.properties := rfl
  by_cases h : p.reason = .Success ∧ p.properties = none
  · have hs := ack_short (c := pubRelCode p.reason) (toList := Spec.PubRelProperties.toList)
      (o := p.properties) ⟨(PubRel.code_zero _).2 h.1, h.2⟩
    have hl : p.len = 2 := by simp [PubRel.len, h]
    refine plays_frame (p := .PubRel p) rfl (by rw [announced_size id, hb, hs, hl]; rfl) ?_
    rw [hb, hs, if_pos h, hl, show varint 2 = [2] by rw [varint, if_pos (by omega)]; rfl]
    exact Plays.done (plays_u16 _)
  · have hs := ack_long (c := pubRelCode p.reason) (toList := Spec.PubRelProperties.toList)
      (o := p.properties) (by rw [PubRel.code_zero]; exact h)
    have hl : p.len = 2 + 1 + optPropsLen PubRelProperties.len p.properties := by
      simp only [PubRel.len, if_neg h]
    refine plays_frame (p := .PubRel p) rfl ?_ ?_
    · rw [announced_size id, hb, hs, hl, size_opt PubRelProperties.len_eq]
      simp [Piece.size]; omega
    · rw [hb, hs, if_neg h]
      rw [PubRel.code_eq]
      exact Plays.cons (plays_u16 _) (Plays.cons (plays_u8 _)
        (Plays.done (plays_opt PubRelProperties.len_eq PubRelProperties.write_eq _)))

theorem PubComp.plays (p : PubComp) : Plays p.write (returned (.PubComp p)) (layout (.PubComp p)) := by
  have hb : bodyPieces (.PubComp p) = .raw (u16 p.pkid) ::
    ackPieces (pubCompCode p.reason) Spec.PubCompProperties.toList p.properties := rfl
  by_cases h : p.reason = .Success ∧ p.properties = none
  · have hs := ack_short (c := pubCompCode p.reason) (toList := Spec.PubCompProperties.toList)
      (o := p.properties) ⟨(PubComp.code_zero _).2 h.1, h.2⟩
    have hl : p.len = 2 := by simp [PubComp.len, h]
    refine plays_frame (p := .PubComp p) rfl (by rw [announced_size id, hb, hs, hl]; rfl) ?_
    rw [hb, hs, if_pos h, hl, show varint 2 = [2] by rw [varint, if_pos (by omega)]; rfl]
    exact Plays.done (plays_u16 _)
  · have hs := ack_long (c := pubCompCode p.reason) (toList := Spec.PubCompProperties.toList)
      (o := p.properties) (by rw [PubComp.code_zero]; exact h)
    have hl : p.len = 2 + 1 + optPropsLen PubCompProperties.len p.properties := by
      simp only [PubComp.len, if_neg h]
    refine plays_frame (p := .PubComp p) rfl ?_ ?_
    · rw [announced_size id, hb, hs, hl, size_opt PubCompProperties.len_eq]
      simp [Piece.size]; omega
    · rw [hb, hs, if_neg h]
      rw [PubComp.code_eq]
      exact Plays.cons (plays_u16 _) (Plays.cons (plays_u8 _)
        (Plays.done (plays_opt PubCompProperties.len_eq PubCompProperties.write_eq _)))


/-- The common shape: packet identifier, properties, payload. -/
theorem plays_pkid {p : Packet} {h : UInt8} {pkid : UInt16} {plen : σ → Nat}
    {toList : σ → List Property} {write : σ → M Unit} {o : Option σ} {tailM : M Unit}
    {tail : List Piece} {len : Nat} (ho : ¬ Overlong p)
    (hl : ∀ p, plen p = gLen (toList p))
    (hw : ∀ p, write p = write_remaining_length (plen p) >>= fun _ => gWrite (toList p))
    (hbody : bodyPieces p = [.raw (u16 pkid)] ++ sectionPieces (optList toList o) ++ tail)
    (hb : h = byte1 p)
    (hlen : len = 2 + sizes tail + optPropsLen plen o)
    (ht : Plays tailM () tail) :
    Plays (putU8 h >>= fun _ => write_remaining_length len >>= fun count =>
        putU16 pkid >>= fun _ => writeOptProps write o >>= fun _ => tailM >>= fun _ =>
        pure (1 + count + len)) (returned p) (layout p) := by
  refine plays_frame hb ?_ ?_
  · rw [announced_size ho, hbody, hlen, size_opt hl]
    simp [Piece.size]; omega
  · rw [hbody, List.append_assoc, List.singleton_append]
    exact Plays.cons (plays_u16 _) (Plays.bind (plays_opt hl hw _) (Plays.done ht))

theorem SubAck.plays (p : SubAck) : Plays p.write (returned (.SubAck p)) (layout (.SubAck p)) := by
  have e : p.return_codes.map SubscribeReasonCode.code = p.return_codes.map Spec.subAckCode :=
    List.map_congr_left fun r _ => SubAck.code_eq r
  exact plays_pkid (p := .SubAck p) (h := 0x90) (pkid := p.pkid) (o := p.properties)
    (tailM := putBytes (p.return_codes.map SubscribeReasonCode.code)) (len := p.len)
    (tail := [.raw (p.return_codes.map Spec.subAckCode)]) id
    SubAckProperties.len_eq SubAckProperties.write_eq rfl rfl
    (by simp [SubAck.len, Piece.size]) (plays_raw (e ▸ Emits.putBytes _))

theorem UnsubAck.plays (p : UnsubAck) :
    Plays p.write (returned (.UnsubAck p)) (layout (.UnsubAck p)) := by
  have e : p.reasons.map UnsubAckReason.code = p.reasons.map Spec.unsubAckCode :=
    List.map_congr_left fun r _ => UnsubAck.code_eq r
  exact plays_pkid (p := .UnsubAck p) (h := 0xB0) (pkid := p.pkid) (o := p.properties)
    (tailM := putBytes (p.reasons.map UnsubAckReason.code)) (len := p.len)
    (tail := [.raw (p.reasons.map Spec.unsubAckCode)]) id
    UnsubAckProperties.len_eq UnsubAckProperties.write_eq rfl rfl
    (by simp [UnsubAck.len, Piece.size]) (plays_raw (e ▸ Emits.putBytes _))

theorem plays_filters (l : List Bytes) :
    Plays (Unsubscribe.writeFilters l) () (l.map .text) := by
  induction l with
  | nil => exact Plays.pure ()
  | cons x l ih => exact Plays.cons (plays_text x) ih

theorem sizes_filters (l : List Bytes) : sizes (l.map .text) = (l.flatMap str).length := by
  induction l with
  | nil => rfl
  | cons x l ih => simp [Piece.size, ih]

theorem Unsubscribe.plays (p : Unsubscribe) :
    Plays p.write (returned (.Unsubscribe p)) (layout (.Unsubscribe p)) :=
  plays_pkid (p := .Unsubscribe p) (h := 0xA2) (pkid := p.pkid) (o := p.properties)
    (tailM := Unsubscribe.writeFilters p.filters) (len := p.len) id
    UnsubscribeProperties.len_eq UnsubscribeProperties.write_eq rfl rfl
    (by rw [Unsubscribe.len, unsub_foldl, sizes_filters]; omega)
    (plays_filters p.filters)

theorem plays_subs (l : List Filter) : Plays (Filter.writeAll l) ()
    (l.flatMap fun f => [.text f.path, .raw [UInt8.ofNat (filterOptions f)]]) := by
  induction l with
  | nil => exact Plays.pure ()
  | cons x l ih =>
    have h : Plays x.write () [.text x.path, .raw [UInt8.ofNat (filterOptions x)]] := by
      rw [← Filter.options_eq]
      exact Plays.cons (plays_text _) (plays_u8 _)
    exact Plays.bind h ih

theorem sizes_subs (l : List Filter) :
    sizes (l.flatMap fun f => [.text f.path, .raw [UInt8.ofNat (filterOptions f)]])
      = (l.flatMap filterBytes).length := by
  induction l with
  | nil => rfl
  | cons x l ih => simp [Piece.size, ih, filterBytes]; omega

theorem Subscribe.plays (p : Subscribe) :
    Plays p.write (returned (.Subscribe p)) (layout (.Subscribe p)) :=
  plays_pkid (p := .Subscribe p) (h := 0x82) (pkid := p.pkid) (o := p.properties)
    (tailM := Filter.writeAll p.filters) (len := p.len) id
    SubscribeProperties.len_eq SubscribeProperties.write_eq rfl rfl
    (by rw [Subscribe.len, sub_foldl, sizes_subs]; omega)
    (plays_subs p.filters)

theorem plays_code {α : Type} (c : ConnectReturnCode) {k : M α} {a : α} {L : List Piece}
    (h : Plays k a L) :
    Plays (liftOut c.code >>= fun code => putU8 code >>= fun _ => k) a
      (.code (connAckCode c) :: L) := by
  rw [ConnAck.code_eq]
  cases hc : connAckCode c with
  | none =>
    intro b
    rw [M.bind_panic (b' := b) (by simp [liftOut])]
    simp [emit, Piece.written, wrapped]
  | some n =>
    have h1 : Plays (liftOut (Out.ok n)) n [] := by
      intro b; simp [liftOut, emit, wrapped]
    have h2 : Plays (putU8 n) () [.code (some n)] := plays_u8 n
    exact Plays.bind h1 (Plays.cons h2 h)

theorem ConnAck.plays (p : ConnAck) :
    Plays p.write (returned (.ConnAck p)) (layout (.ConnAck p)) := by
  refine plays_frame (p := .ConnAck p) rfl ?_ ?_
  · rw [announced_size id, ConnAck.len, size_opt ConnAckProperties.len_eq]
    simp [bodyPieces, Piece.size]; omega
  · have : boolU8 p.session_present = UInt8.ofNat (bit p.session_present) := by
      cases p.session_present <;> rfl
    rw [this]
    exact Plays.cons (plays_u8 _) (plays_code p.code (Plays.done
      (plays_opt ConnAckProperties.len_eq ConnAckProperties.write_eq _)))

theorem Publish.plays (p : Publish) :
    Plays p.write (returned (.Publish p)) (layout (.Publish p)) := by
  refine plays_frame (p := .Publish p) (Publish.byte1_eq p) ?_ ?_
  · rw [announced_size id, Publish.len, size_opt PublishProperties.len_eq]
    by_cases hq : p.qos = .AtMostOnce
    · simp [bodyPieces, Piece.size, hq]; omega
    · by_cases hk : p.pkid = 0 <;> simp [bodyPieces, Piece.size, hq, hk] <;> omega
  · have ht : Plays (writeOptProps PublishProperties.write p.properties >>= fun _ =>
        putBytes p.payload >>= fun _ => pure (1 + (varint p.len).length + p.len))
        (1 + (varint p.len).length + p.len)
        (sectionPieces (optList Spec.PublishProperties.toList p.properties) ++ [.raw p.payload]) :=
      Plays.bind (plays_opt PublishProperties.len_eq PublishProperties.write_eq _)
        (Plays.done (plays_raw (Emits.putBytes _)))
    have hb : bodyPieces (.Publish p) = .text p.topic ::
        ((if p.qos = .AtMostOnce then [] else [.pkid p.pkid]) ++
          (sectionPieces (optList Spec.PublishProperties.toList p.properties)
            ++ [.raw p.payload])) := by
      simp [bodyPieces]
    rw [hb]
    refine Plays.cons (plays_text p.topic) ?_
    by_cases hq : p.qos = .AtMostOnce
    · simp only [hq, ne_eq, not_true_eq_false, if_false, if_true]
      exact ht
    · simp only [hq, ne_eq, not_false_eq_true, if_false, if_true]
      refine Plays.cons (a := ()) (m := if p.pkid = 0 then throwE .PacketIdZero else putU16 p.pkid) ?_ ht
      intro b
      by_cases hk : p.pkid = 0
      · rw [if_pos hk]
        simp [emit, Piece.written, wrapped, hk, throwE]
      · rw [if_neg hk, emits_u16]
        simp [emit, Piece.written, wrapped, hk]

theorem PingReq.plays : Plays PingReq.write (returned .PingReq) (layout .PingReq) := by
  intro b
  show (putBytes [0xC0, 0x00] >>= fun _ => (pure 2 : M Nat)) b = _
  have hv : varint 0 = [0] := by rw [varint, if_pos (by omega)]; rfl
  have ha : announced .PingReq = 0 := rfl
  rw [M.bind_ok (Emits.putBytes _ b)]
  simp [layout, emit, Piece.written, wrapped, ha, hv, maxVarint, bodyPieces, byte1, returned]

theorem PingResp.plays : Plays PingResp.write (returned .PingResp) (layout .PingResp) := by
  intro b
  show (putBytes [0xD0, 0x00] >>= fun _ => (pure 2 : M Nat)) b = _
  have hv : varint 0 = [0] := by rw [varint, if_pos (by omega)]; rfl
  have ha : announced .PingResp = 0 := rfl
  rw [M.bind_ok (Emits.putBytes _ b)]
  simp [layout, emit, Piece.written, wrapped, ha, hv, maxVarint, bodyPieces, byte1, returned]

theorem Disconnect.plays_two (p : Disconnect) (h2 : p.len = 2)
    (hb : bodyPieces (.Disconnect p) = []) (ho : ¬ Overlong (.Disconnect p)) :
    Plays p.write (returned (.Disconnect p)) (layout (.Disconnect p)) := by
  have hv : varint 0 = [0] := by rw [varint, if_pos (by omega)]; rfl
  have ha : announced (.Disconnect p) = 0 := by rw [announced_size ho, hb]; rfl
  have hw : p.write = putU8 0xE0 >>= fun _ => putU8 0x00 >>= fun _ => pure 2 := by
    unfold Disconnect.write
    simp [h2]
  rw [hw]
  intro b
  rw [M.bind_ok (emits_u8 _ b), M.bind_ok (emits_u8 _ _)]
  simp [layout, emit, Piece.written, wrapped, ha, hv, maxVarint, hb, byte1, returned]

theorem Disconnect.plays (p : Disconnect) :
    Plays p.write (returned (.Disconnect p)) (layout (.Disconnect p)) := by
  by_cases h2 : p.len = 2
  · refine Disconnect.plays_two p h2 ?_ ?_
    · cases hp : p.properties with
      | none =>
        have hr : p.reason_code = .NormalDisconnection := by
          refine Classical.byContradiction fun hr => ?_
          simp [Disconnect.len, hp, hr] at h2
        simp [bodyPieces, hp, hr, ackPieces, disconnectCode]
      | some q =>
        have hq : Spec.DisconnectProperties.toList q = [] := by
          refine Classical.byContradiction fun hq => ?_
          have := len_len_pos q.len
          have := gLen_pos hq
          rw [← DisconnectProperties.len_eq] at this
          simp [Disconnect.len, hp] at h2
          omega
        simp [bodyPieces, hp, hq, optList]
    · rintro ⟨hp, hr⟩
      simp [Disconnect.len, hp, hr] at h2
  · have hw : p.write = putU8 0xE0 >>= fun _ => write_remaining_length p.len >>= fun count =>
        putU8 p.reason_code.code >>= fun _ =>
        writeOptProps DisconnectProperties.write p.properties >>= fun _ =>
        pure (1 + count + p.len) := by
      unfold Disconnect.write
      simp only [if_neg h2]
    have hb : bodyPieces (.Disconnect p) = .raw [disconnectCode p.reason_code] ::
        sectionPieces (optList Spec.DisconnectProperties.toList p.properties) := by
      cases hp : p.properties with
      | none =>
        have hr : disconnectCode p.reason_code ≠ 0 := by
          intro hr
          rw [Disconnect.code_zero] at hr
          exact h2 (by simp [Disconnect.len, hp, hr])
        simp [bodyPieces, hp, ackPieces, hr, optList]
      | some q =>
        have hq : Spec.DisconnectProperties.toList q ≠ [] := by
          intro hq
          refine h2 ?_
          have : q.len = 0 := by rw [DisconnectProperties.len_eq, hq]; rfl
          simp [Disconnect.len, hp, this, len_len]
        simp [bodyPieces, hp, hq, ackPieces, optList]
    rw [hw]
    refine plays_frame (p := .Disconnect p) rfl ?_ ?_
    · by_cases ho : Overlong (.Disconnect p)
      · obtain ⟨hp, hr⟩ := ho
        rw [announced, if_pos ⟨hp, hr⟩]
        simp [Disconnect.len, hp, hr]
      · rw [announced_size ho, hb]
        cases hp : p.properties with
        | none =>
          exact absurd (by simp [Disconnect.len, hp, Classical.byContradiction fun hr => ho ⟨hp, hr⟩])
            h2
        | some q =>
          simp [Disconnect.len, hp, sizes_cons, Piece.size, optList, size_section,
            DisconnectProperties.len_eq]
    · rw [hb, Disconnect.code_eq]
      exact Plays.cons (plays_u8 _) (Plays.done
        (plays_opt DisconnectProperties.len_eq DisconnectProperties.write_eq _))

/-- Every packet but CONNECT. -/
theorem write_plays {p : Packet} (hc : ¬ IsConnect p) :
    Plays p.write (returned p) (layout p) := by
  cases p with
  | Connect c w l => exact absurd trivial hc
  | ConnAck p => exact p.plays
  | Publish p => exact p.plays
  | PubAck p => exact p.plays
  | PubRec p => exact p.plays
  | PubRel p => exact p.plays
  | PubComp p => exact p.plays
  | Subscribe p => exact p.plays
  | SubAck p => exact p.plays
  | Unsubscribe p => exact p.plays
  | UnsubAck p => exact p.plays
  | PingReq => exact PingReq.plays
  | PingResp => exact PingResp.plays
  | Disconnect p => exact p.plays

/-! ### CONNECT -/

theorem LastWill.plays (w : LastWill) : Plays w.write (willFlags (some w)) (willPieces w) := by
  exact Plays.bind (plays_opt LastWillProperties.len_eq LastWillProperties.write_eq w.properties)
    (Plays.cons (plays_text _) (Plays.done (c := willFlags (some w)) (plays_text _)))

theorem LastWill.size_eq (w : LastWill) : w.len = sizes (willPieces w) := by
  rw [LastWill.len, size_opt LastWillProperties.len_eq]
  simp [willPieces, Piece.size]; omega

theorem Login.plays (l : Login) : Plays l.write (loginFlags (some l)) (loginPieces l) := by
  have aux : ∀ (s : Bytes) (f g : UInt8),
      Plays (if s.isEmpty then pure f else write_mqtt_string s >>= fun _ => pure (f ||| g))
        (if s.isEmpty then f else f ||| g) (optText s) := by
    intro s f g
    cases s with
    | nil => exact Plays.pure _
    | cons x s => exact Plays.done (plays_text _)
  exact Plays.bind (aux l.username 0 0x80) (aux l.password _ 0x40)

theorem Login.size_eq (l : Login) : l.len = sizes (loginPieces l) := by
  obtain ⟨u, p⟩ := l
  cases u <;> cases p <;> simp [Login.len, loginPieces, optText, Piece.size]

theorem cleanFlags_eq (c : Connect) : cleanFlags c = UInt8.ofNat (2 * bit c.clean_start) := by
  unfold cleanFlags bit
  cases c.clean_start <;> rfl

theorem connectPre_plays (c : Connect) (will : Option LastWill) (l : Option Login) :
    Plays (connectPre c will l)
      (UInt8.ofNat (connectFlags c will l), (varint (announced (.Connect c will l))).length)
      (layout (.Connect c will l)) := by
  have hlen : c.len will l = announced (.Connect c will l) := by
    rw [announced_size id]
    unfold Connect.len
    rw [size_opt ConnectProperties.len_eq]
    cases will <;> cases l <;>
      simp [bodyPieces, Piece.size, LastWill.size_eq, Login.size_eq, Connect.protocolName] <;> omega
  have hwill : Plays (match (generalizing := false) will with
        | some w => w.write >>= fun f => pure (cleanFlags c ||| f)
        | none => pure (cleanFlags c) : M UInt8) (cleanFlags c ||| willFlags will)
      (will.elim [] willPieces) := by
    cases will with
    | none => simpa [willFlags] using Plays.pure (cleanFlags c)
    | some w =>
      exact (Plays.bind (f := fun f => pure (cleanFlags c ||| f)) (LastWill.plays w)
        (Plays.pure _)).congr (List.append_nil _)
  have hlogin : ∀ f1 : UInt8, Plays (match (generalizing := false) l with
        | some l => l.write >>= fun f => pure (f1 ||| f)
        | none => pure f1 : M UInt8) (f1 ||| loginFlags l) (l.elim [] loginPieces) := by
    intro f1
    cases l with
    | none => simpa [loginFlags] using Plays.pure f1
    | some l =>
      exact (Plays.bind (f := fun f => pure (f1 ||| f)) (Login.plays l)
        (Plays.pure _)).congr (List.append_nil _)
  have hbody : bodyPieces (.Connect c will l) =
      .text Connect.protocolName :: .raw [0x05] :: .raw [cleanFlags c] :: .raw (u16 c.keep_alive) ::
        (sectionPieces (optList Spec.ConnectProperties.toList c.properties) ++
          .text c.client_id :: (will.elim [] willPieces ++ l.elim [] loginPieces)) := by
    rw [cleanFlags_eq]
    simp [bodyPieces, Connect.protocolName]
  unfold connectPre
  rw [hlen]
  refine Plays.cons (plays_u8 _) (Plays.cons (plays_num _) ?_)
  rw [hbody, ← connectFlags_eq]
  refine Plays.cons (plays_text _) (Plays.cons (plays_u8 _) (Plays.cons (plays_u8 _)
    (Plays.cons (plays_u16 _) (Plays.bind
      (plays_opt ConnectProperties.len_eq ConnectProperties.write_eq _)
      (Plays.cons (plays_text _) (Plays.bind hwill ?_))))))
  exact (Plays.bind (f := fun f2 => pure (f2, (varint (announced (.Connect c will l))).length))
    (hlogin _) (Plays.pure _)).congr (List.append_nil _)

/-- CONNECT, with the flags stored at the end. -/
theorem Connect.write_result (c : Connect) (will : Option LastWill) (l : Option Login) (b : Bytes) :
    c.write will l b = writeResult (.Connect c will l) b := by
  have hlen : c.len will l = announced (.Connect c will l) := by
    rw [announced_size id]
    unfold Connect.len
    rw [size_opt ConnectProperties.len_eq]
    cases will <;> cases l <;>
      simp [bodyPieces, Piece.size, LastWill.size_eq, Login.size_eq, Connect.protocolName] <;> omega
  have h := connectPre_plays c will l b
  rw [Connect.write_eq, hlen]
  unfold writeResult
  have he : (emit (layout (.Connect c will l))).1 = .ok () →
      1 + (varint (announced (.Connect c will l))).length + 6 + 1 <
        (b ++ (emit (layout (.Connect c will l))).2).length := by
    intro he
    by_cases ha : announced (.Connect c will l) ≤ maxVarint
    · simp [layout, bodyPieces, emit, Piece.written, ha]
      omega
    · simp [layout, emit, Piece.written, ha] at he
  generalize emit (layout (.Connect c will l)) = x at h he ⊢
  obtain ⟨o, w⟩ := x
  cases o with
  | ok u =>
    rw [M.bind_ok h]
    have hi := he rfl
    rw [M.bind_ok (a := ()) (b' := _) (by rw [setIndex, if_pos (by simpa using hi)])]
    rfl
  | err e => rw [M.bind_err h]
  | panic => rw [M.bind_panic h]
  | diverge => simp only [M.bind_apply, h]; rfl

theorem write_result (p : Packet) (b : Bytes) : p.write b = writeResult p b := by
  by_cases hc : IsConnect p
  · obtain ⟨c, w, l, rfl⟩ := connect_cases hc
    exact Connect.write_result c w l b
  · rw [write_plays hc b]
    have hp : ∀ x, patch p x = x := by
      intro x; cases p <;> first | rfl | exact absurd trivial hc
    unfold writeResult
    generalize emit (layout p) = x
    obtain ⟨o, w⟩ := x
    cases o <;> simp [wrapped, hp]

/-! ### Reading `emit` -/

theorem emit_ok {L : List Piece} {w : Bytes} : emit L = (.ok (), w) ↔ allWritten L w := by
  induction L generalizing w with
  | nil =>
    simp only [emit, allWritten, Prod.mk.injEq, true_and, List.map_nil]
    constructor
    · rintro rfl; exact ⟨[], rfl, rfl⟩
    · rintro ⟨ws, h, rfl⟩
      have : ws = [] := by simpa using h
      subst this; rfl
  | cons p L ih =>
    constructor
    · intro h
      unfold emit at h
      cases hp : p.written with
      | ok v =>
        rw [hp] at h
        simp only [Prod.mk.injEq] at h
        obtain ⟨ws, h1, h2⟩ := ih.1 (Prod.ext h.1 rfl)
        exact ⟨v :: ws, by simp [hp, h1], by simp [← h.2, h2]⟩
      | _ => rw [hp] at h; simp at h
    · rintro ⟨ws, h, rfl⟩
      cases ws with
      | nil => simp at h
      | cons v ws =>
        simp only [List.map_cons, List.cons.injEq] at h
        have := ih.2 ⟨ws, h.2, rfl⟩
        simp [emit, h.1, this]

theorem emit_stop {L : List Piece} {w : Bytes} {o : Out Unit} (ho : o ≠ .ok ()) :
    emit L = (o, w) ↔ ∃ L1 x L2, L = L1 ++ x :: L2 ∧ allWritten L1 w ∧
      wrapped (fun _ => ()) x.written = o := by
  induction L generalizing w with
  | nil =>
    constructor
    · intro h; simp only [emit, Prod.mk.injEq] at h; exact absurd h.1.symm ho
    · rintro ⟨L1, x, L2, h, -⟩; simp at h
  | cons p L ih =>
    constructor
    · intro h
      unfold emit at h
      cases hp : p.written with
      | ok v =>
        rw [hp] at h
        simp only [Prod.mk.injEq] at h
        obtain ⟨L1, x, L2, h1, ⟨ws, h2, h3⟩, h4⟩ := ih.1 (Prod.ext h.1 rfl)
        exact ⟨p :: L1, x, L2, by rw [h1]; rfl, ⟨v :: ws, by simp [hp, h2], by simp [← h.2, h3]⟩, h4⟩
      | err e =>
        rw [hp] at h
        simp only [Prod.mk.injEq] at h
        exact ⟨[], p, L, rfl, ⟨[], rfl, h.2.symm⟩, by rw [hp]; exact h.1⟩
      | panic =>
        rw [hp] at h
        simp only [Prod.mk.injEq] at h
        exact ⟨[], p, L, rfl, ⟨[], rfl, h.2.symm⟩, by rw [hp]; exact h.1⟩
      | diverge =>
        rw [hp] at h
        simp only [Prod.mk.injEq] at h
        exact ⟨[], p, L, rfl, ⟨[], rfl, h.2.symm⟩, by rw [hp]; exact h.1⟩
    · rintro ⟨L1, x, L2, h, ⟨ws, h2, rfl⟩, h4⟩
      cases L1 with
      | nil =>
        have : ws = [] := by simpa using h2.symm
        subst this
        simp only [List.nil_append, List.cons.injEq] at h
        obtain ⟨rfl, rfl⟩ := h
        unfold emit
        cases hp : p.written with
        | ok v => rw [hp] at h4; exact absurd h4.symm ho
        | _ => rw [hp] at h4; simp [wrapped] at h4; simp [h4]
      | cons y L1 =>
        simp only [List.cons_append, List.cons.injEq] at h
        obtain ⟨rfl, rfl⟩ := h
        cases ws with
        | nil => simp at h2
        | cons v ws =>
          simp only [List.map_cons, List.cons.injEq] at h2
          have := ih.2 ⟨L1, x, L2, rfl, ⟨ws, h2.2, rfl⟩, h4⟩
          simp [emit, h2.1, this]

end Mqtt
