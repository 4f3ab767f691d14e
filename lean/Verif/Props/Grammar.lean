import Verif.Proofs.Mqtt5Write
import Verif.Props.Decoded
import Verif.Props.Fields
/-
C40: the accepted language, and its relation to MQTT 5.
-/
namespace Props

open Mqtt Spec

/-! ### The topic name "a", for the examples -/

theorem text_a : Text5 [0x61] := ⟨by decide, ⟨['a'], by decide⟩, by decide⟩

theorem name_a : Name5 [0x61] := ⟨text_a, by decide, by decide, by decide⟩

theorem filter_a : Filter5 [0x61] :=
  ⟨text_a, ⟨['a'], by decide, by decide, [], ['a'], ⟨by decide, by decide, by decide⟩, by simp,
    by decide, by decide⟩, fun rest h => by simp [IsShared] at h⟩

/-! ### The tables of the standard -/

/-- C40, C25: the property identifiers of each packet in the specification are exactly those that
table 2-4 of MQTT 5 lists for it. -/
theorem C40_table_properties (x : UInt8) :
    (x ∈ Spec.ConnectProperties.allowed ↔ 1 ∈ table24 x) ∧
    (x ∈ Spec.LastWillProperties.allowed ↔ 0 ∈ table24 x) ∧
    (x ∈ Spec.ConnAckProperties.allowed ↔ 2 ∈ table24 x) ∧
    (x ∈ Spec.PublishProperties.allowed ↔ 3 ∈ table24 x) ∧
    (x ∈ Spec.PubAckProperties.allowed ↔ 4 ∈ table24 x) ∧
    (x ∈ Spec.PubRecProperties.allowed ↔ 5 ∈ table24 x) ∧
    (x ∈ Spec.PubRelProperties.allowed ↔ 6 ∈ table24 x) ∧
    (x ∈ Spec.PubCompProperties.allowed ↔ 7 ∈ table24 x) ∧
    (x ∈ Spec.SubscribeProperties.allowed ↔ 8 ∈ table24 x) ∧
    (x ∈ Spec.SubAckProperties.allowed ↔ 9 ∈ table24 x) ∧
    (x ∈ Spec.UnsubscribeProperties.allowed ↔ 10 ∈ table24 x) ∧
    (x ∈ Spec.UnsubAckProperties.allowed ↔ 11 ∈ table24 x) ∧
    (x ∈ Spec.DisconnectProperties.allowed ↔ 14 ∈ table24 x) := by
  refine ⟨?_, ?_, ?_, ?_, ?_, ?_, ?_, ?_, ?_, ?_, ?_, ?_, ?_⟩ <;> revert x <;>
    exact u8_all (by decide +kernel)

/-- C40, C23: the reason codes of each packet in the specification, i.e. those for which the library
has a name, are exactly those that MQTT 5 defines for it. -/
theorem C40_table_reasons (x : UInt8) :
    ((∃ rc, connAckCode rc = some x) ↔ x ∈ reasonTable 2) ∧
    ((∃ rc, pubAckCode rc = x) ↔ x ∈ reasonTable 4) ∧
    ((∃ rc, pubRecCode rc = x) ↔ x ∈ reasonTable 5) ∧
    ((∃ rc, pubRelCode rc = x) ↔ x ∈ reasonTable 6) ∧
    ((∃ rc, pubCompCode rc = x) ↔ x ∈ reasonTable 7) ∧
    ((∃ rc, subAckCode rc = x) ↔ x ∈ reasonTable 9) ∧
    ((∃ rc, unsubAckCode rc = x) ↔ x ∈ reasonTable 11) ∧
    ((∃ rc, disconnectCode rc = x) ↔ x ∈ reasonTable 14) := by
  refine ⟨?_, ?_, ?_, ?_, ?_, ?_, ?_, ?_⟩
  · constructor
    · rintro ⟨rc, h⟩
      cases rc <;> simp only [connAckCode, Option.some.injEq, reduceCtorEq] at h <;> subst h <;>
        decide
    · intro h
      simp only [reasonTable, List.mem_cons, List.not_mem_nil, or_false] at h
      rcases h with rfl | rfl | rfl | rfl | rfl | rfl | rfl | rfl | rfl | rfl | rfl | rfl | rfl |
        rfl | rfl | rfl | rfl | rfl | rfl | rfl | rfl | rfl
      · exact ⟨.Success, rfl⟩
      · exact ⟨.UnspecifiedError, rfl⟩
      · exact ⟨.MalformedPacket, rfl⟩
      · exact ⟨.ProtocolError, rfl⟩
      · exact ⟨.ImplementationSpecificError, rfl⟩
      · exact ⟨.UnsupportedProtocolVersion, rfl⟩
      · exact ⟨.ClientIdentifierNotValid, rfl⟩
      · exact ⟨.BadUserNamePassword, rfl⟩
      · exact ⟨.NotAuthorized, rfl⟩
      · exact ⟨.ServerUnavailable, rfl⟩
      · exact ⟨.ServerBusy, rfl⟩
      · exact ⟨.Banned, rfl⟩
      · exact ⟨.BadAuthenticationMethod, rfl⟩
      · exact ⟨.TopicNameInvalid, rfl⟩
      · exact ⟨.PacketTooLarge, rfl⟩
      · exact ⟨.QuotaExceeded, rfl⟩
      · exact ⟨.PayloadFormatInvalid, rfl⟩
      · exact ⟨.RetainNotSupported, rfl⟩
      · exact ⟨.QoSNotSupported, rfl⟩
      · exact ⟨.UseAnotherServer, rfl⟩
      · exact ⟨.ServerMoved, rfl⟩
      · exact ⟨.ConnectionRateExceeded, rfl⟩
  · constructor
    · rintro ⟨rc, rfl⟩; cases rc <;> decide
    · intro h
      simp only [reasonTable, List.mem_cons, List.not_mem_nil, or_false] at h
      rcases h with rfl | rfl | rfl | rfl | rfl | rfl | rfl | rfl | rfl
      · exact ⟨.Success, rfl⟩
      · exact ⟨.NoMatchingSubscribers, rfl⟩
      · exact ⟨.UnspecifiedError, rfl⟩
      · exact ⟨.ImplementationSpecificError, rfl⟩
      · exact ⟨.NotAuthorized, rfl⟩
      · exact ⟨.TopicNameInvalid, rfl⟩
      · exact ⟨.PacketIdentifierInUse, rfl⟩
      · exact ⟨.QuotaExceeded, rfl⟩
      · exact ⟨.PayloadFormatInvalid, rfl⟩
  · constructor
    · rintro ⟨rc, rfl⟩; cases rc <;> decide
    · intro h
      simp only [reasonTable, List.mem_cons, List.not_mem_nil, or_false] at h
      rcases h with rfl | rfl | rfl | rfl | rfl | rfl | rfl | rfl | rfl
      · exact ⟨.Success, rfl⟩
      · exact ⟨.NoMatchingSubscribers, rfl⟩
      · exact ⟨.UnspecifiedError, rfl⟩
      · exact ⟨.ImplementationSpecificError, rfl⟩
      · exact ⟨.NotAuthorized, rfl⟩
      · exact ⟨.TopicNameInvalid, rfl⟩
      · exact ⟨.PacketIdentifierInUse, rfl⟩
      · exact ⟨.QuotaExceeded, rfl⟩
      · exact ⟨.PayloadFormatInvalid, rfl⟩
  · constructor
    · rintro ⟨rc, rfl⟩; cases rc <;> decide
    · intro h
      simp only [reasonTable, List.mem_cons, List.not_mem_nil, or_false] at h
      rcases h with rfl | rfl
      · exact ⟨.Success, rfl⟩
      · exact ⟨.PacketIdentifierNotFound, rfl⟩
  · constructor
    · rintro ⟨rc, rfl⟩; cases rc <;> decide
    · intro h
      simp only [reasonTable, List.mem_cons, List.not_mem_nil, or_false] at h
      rcases h with rfl | rfl
      · exact ⟨.Success, rfl⟩
      · exact ⟨.PacketIdentifierNotFound, rfl⟩
  · constructor
    · rintro ⟨rc, rfl⟩
      cases rc with
      | Success q => cases q <;> decide
      | _ => decide
    · intro h
      simp only [reasonTable, List.mem_cons, List.not_mem_nil, or_false] at h
      rcases h with rfl | rfl | rfl | rfl | rfl | rfl | rfl | rfl | rfl | rfl | rfl | rfl
      · exact ⟨.Success .AtMostOnce, rfl⟩
      · exact ⟨.Success .AtLeastOnce, rfl⟩
      · exact ⟨.Success .ExactlyOnce, rfl⟩
      · exact ⟨.Unspecified, rfl⟩
      · exact ⟨.ImplementationSpecific, rfl⟩
      · exact ⟨.NotAuthorized, rfl⟩
      · exact ⟨.TopicFilterInvalid, rfl⟩
      · exact ⟨.PkidInUse, rfl⟩
      · exact ⟨.QuotaExceeded, rfl⟩
      · exact ⟨.SharedSubscriptionsNotSupported, rfl⟩
      · exact ⟨.SubscriptionIdNotSupported, rfl⟩
      · exact ⟨.WildcardSubscriptionsNotSupported, rfl⟩
  · constructor
    · rintro ⟨rc, rfl⟩; cases rc <;> decide
    · intro h
      simp only [reasonTable, List.mem_cons, List.not_mem_nil, or_false] at h
      rcases h with rfl | rfl | rfl | rfl | rfl | rfl | rfl
      · exact ⟨.Success, rfl⟩
      · exact ⟨.NoSubscriptionExisted, rfl⟩
      · exact ⟨.UnspecifiedError, rfl⟩
      · exact ⟨.ImplementationSpecificError, rfl⟩
      · exact ⟨.NotAuthorized, rfl⟩
      · exact ⟨.TopicFilterInvalid, rfl⟩
      · exact ⟨.PacketIdentifierInUse, rfl⟩
  · constructor
    · rintro ⟨rc, rfl⟩; cases rc <;> decide
    · intro h
      simp only [reasonTable, List.mem_cons, List.not_mem_nil, or_false] at h
      rcases h with rfl | rfl | rfl | rfl | rfl | rfl | rfl | rfl | rfl | rfl | rfl | rfl | rfl |
        rfl | rfl | rfl | rfl | rfl | rfl | rfl | rfl | rfl | rfl | rfl | rfl | rfl | rfl | rfl |
        rfl
      · exact ⟨.NormalDisconnection, rfl⟩
      · exact ⟨.DisconnectWithWillMessage, rfl⟩
      · exact ⟨.UnspecifiedError, rfl⟩
      · exact ⟨.MalformedPacket, rfl⟩
      · exact ⟨.ProtocolError, rfl⟩
      · exact ⟨.ImplementationSpecificError, rfl⟩
      · exact ⟨.NotAuthorized, rfl⟩
      · exact ⟨.ServerBusy, rfl⟩
      · exact ⟨.ServerShuttingDown, rfl⟩
      · exact ⟨.KeepAliveTimeout, rfl⟩
      · exact ⟨.SessionTakenOver, rfl⟩
      · exact ⟨.TopicFilterInvalid, rfl⟩
      · exact ⟨.TopicNameInvalid, rfl⟩
      · exact ⟨.ReceiveMaximumExceeded, rfl⟩
      · exact ⟨.TopicAliasInvalid, rfl⟩
      · exact ⟨.PacketTooLarge, rfl⟩
      · exact ⟨.MessageRateTooHigh, rfl⟩
      · exact ⟨.QuotaExceeded, rfl⟩
      · exact ⟨.AdministrativeAction, rfl⟩
      · exact ⟨.PayloadFormatInvalid, rfl⟩
      · exact ⟨.RetainNotSupported, rfl⟩
      · exact ⟨.QoSNotSupported, rfl⟩
      · exact ⟨.UseAnotherServer, rfl⟩
      · exact ⟨.ServerMoved, rfl⟩
      · exact ⟨.SharedSubscriptionNotSupported, rfl⟩
      · exact ⟨.ConnectionRateExceeded, rfl⟩
      · exact ⟨.MaximumConnectTime, rfl⟩
      · exact ⟨.SubscriptionIdentifiersNotSupported, rfl⟩
      · exact ⟨.WildcardSubscriptionsNotSupported, rfl⟩

/-- C40: the first bytes of frames that conform are exactly those of tables 2-1 and 2-2 of MQTT 5
(reserved flags, no QoS 3, no DUP with QoS 0). -/
theorem C40_table_flags (b1 : UInt8) :
    (∃ rest p ps, Conforms (b1 :: rest) p ps) ↔ b1 ∈ firstBytes := by
  have hc : ∀ {flags : Nat} {bd : Bytes} {p : Packet} {ps : List Property}, Body5 flags bd p ps →
      bd.length ≤ maxVarint →
      ∃ rest p' ps', Conforms (UInt8.ofNat (16 * typeNum p + flags) :: rest) p' ps' :=
    fun h hl => ⟨_, _, _, _, _, h, hl, rfl⟩
  have hs : ∀ ids many, Section5 ids many [] [0] := fun _ _ =>
    ⟨by decide +kernel, by decide +kernel, by simp, by simp, by simp⟩
  constructor
  · rintro ⟨rest, p, ps, flags, bd, h, -, he⟩
    simp only [List.cons.injEq] at he
    obtain ⟨rfl, -⟩ := he
    cases h with
    | publish0 h =>
      have : flags = 0 ∨ flags = 1 := by omega
      rcases this with rfl | rfl <;> (simp only [typeNum]; decide)
    | @publish _ q _ _ _ _ _ h hq hne =>
      have h1 : flags / 2 % 4 = 1 ∨ flags / 2 % 4 = 2 := by
        cases q <;> simp [qosNum] at hq hne <;> omega
      have : flags = 2 ∨ flags = 3 ∨ flags = 4 ∨ flags = 5 ∨ flags = 10 ∨ flags = 11 ∨
        flags = 12 ∨ flags = 13 := by omega
      rcases this with rfl | rfl | rfl | rfl | rfl | rfl | rfl | rfl <;>
        (simp only [typeNum]; decide)
    | _ => simp only [typeNum]; decide
  · intro h
    simp only [firstBytes, List.mem_cons, List.not_mem_nil, or_false] at h
    have pub0 := fun flags h => hc (Body5.publish0 (flags := flags) (payload := []) h (.inl name_a)
      (hs _ _) (fun h => by cases h))
      (by decide)
    have pub := fun flags q h1 h2 h3 =>
      hc (Body5.publish (flags := flags) (q := q) (pkid := 1) (payload := []) h1 h2 h3 (by decide)
        (.inl name_a)
        (hs _ _) (fun h => by cases h)) (by decide)
    rcases h with rfl | rfl | rfl | rfl | rfl | rfl | rfl | rfl | rfl | rfl | rfl | rfl | rfl |
      rfl | rfl | rfl | rfl | rfl | rfl | rfl | rfl | rfl | rfl
    · exact hc (Body5.connect (flags := 0) (keepAlive := 0) (user := []) (pass := []) (by decide)
        (by decide) (hs _ _) (by simp [Auth5]) text_a ⟨fun h => absurd h (by decide), fun h => absurd h (by decide)⟩) (by decide +kernel)
    · exact hc (Body5.connAck (present := false) (rc := .Success) rfl (by decide) (hs _ _)) (by decide)
    · exact pub0 0 (by decide)
    · exact pub0 1 (by decide)
    · exact pub 2 .AtLeastOnce (by decide) rfl (by decide)
    · exact pub 3 .AtLeastOnce (by decide) rfl (by decide)
    · exact pub 4 .ExactlyOnce (by decide) rfl (by decide)
    · exact pub 5 .ExactlyOnce (by decide) rfl (by decide)
    · exact pub 10 .AtLeastOnce (by decide) rfl (by decide)
    · exact pub 11 .AtLeastOnce (by decide) rfl (by decide)
    · exact pub 12 .ExactlyOnce (by decide) rfl (by decide)
    · exact pub 13 .ExactlyOnce (by decide) rfl (by decide)
    · exact hc (Body5.pubAck2 (pkid := 1) (by decide)) (by decide)
    · exact hc (Body5.pubRec2 (pkid := 1) (by decide)) (by decide)
    · exact hc (Body5.pubRel2 (pkid := 1) (by decide)) (by decide)
    · exact hc (Body5.pubComp2 (pkid := 1) (by decide)) (by decide)
    · exact hc (Body5.subscribe (pkid := 1) (items := [([0x61], 0)])
        (fs := [⟨[0x61], .AtMostOnce, false, false, .OnEverySubscribe⟩]) (by decide) (hs _ _)
        (by decide) (.cons rfl (by unfold OptionsAre; decide) .nil) (by simpa using filter_a)
        (by simp [NoLocal5]))
        (by decide +kernel)
    · exact hc (Body5.subAck (pkid := 1) (rcs := [.Unspecified]) (by decide) (hs _ _) (by decide))
        (by decide)
    · exact hc (Body5.unsubscribe (pkid := 1) (fs := [[0x61]]) (by decide) (hs _ _) (by decide)
        (by simpa using filter_a)) (by decide +kernel)
    · exact hc (Body5.unsubAck (pkid := 1) (rcs := [.Success]) (by decide) (hs _ _) (by decide))
        (by decide)
    · exact hc Body5.pingReq (by decide)
    · exact hc Body5.pingResp (by decide)
    · exact hc Body5.disconnect0 (by decide)

/-- C40: the numbers that conforming properties carry are exactly those in the ranges MQTT 5 gives
for the identifier. -/
theorem C40_table_values (q : Property) (n : Nat) (h : q.number = some n) :
    q.Value5 ↔ (numberRange q.id).1 ≤ n ∧ n ≤ (numberRange q.id).2 := by
  cases q <;> simp only [Property.number, Option.some.injEq, reduceCtorEq] at h <;> subst h <;>
    simp only [Property.Value5, Property.id, numberRange, maxVarint, true_iff, ne_eq,
      ← UInt16.toNat_inj, ← UInt32.toNat_inj, UInt16.toNat_ofNat, UInt32.toNat_ofNat] <;>
    first
    | omega
    | (rename_i v; have := v.toNat_lt; omega)

/-! ### The accepted language -/

/-- C40: a call succeeds with `p` and leaves `r` if and only if the buffer is a frame that the
grammar derives for `p`, within the size limit, followed by `r`. -/
theorem C40_read_iff (mode : StrMode) (max : Option Nat) (b r : Bytes) (p : Packet) :
    Packet.read mode max b = (.ok p, r) ↔
      ∃ f n, b = f ++ r ∧ RemLen f n ∧ Admits max n ∧ FrameRep mode f p := by
  constructor
  · intro h
    obtain ⟨b1, v, bd, rfl, hv, hm, ht, hb⟩ := read_ok_iff.1 h
    exact ⟨b1 :: (v ++ bd), bd.length, by simp, ⟨b1, v, bd, rfl, hv, rfl⟩, not_overLimit.1 hm,
      b1, v, bd, rfl, hv, ht, hb⟩
  · rintro ⟨f, n, rfl, ⟨b1, v, bd, rfl, hv, rfl⟩, hm, b1', v', bd', he, hv', ht, hb⟩
    simp only [List.cons.injEq] at he
    obtain ⟨rfl, -, rfl⟩ := varintRep_unique hv hv' he.2
    exact read_ok_iff.2 ⟨b1', v, bd, by rw [he.1]; simp, hv, not_overLimit.2 hm, ht, hb⟩

/-- C40: the grammar is unambiguous and prefix-free: of two derivations from the beginning of one
stream, frame and packet are the same. -/
theorem C40_unambiguous (mode : StrMode) (f f' r r' : Bytes) (p p' : Packet)
    (h : FrameRep mode f p) (h' : FrameRep mode f' p') (he : f ++ r = f' ++ r') :
    f = f' ∧ r = r' ∧ p = p' := by
  obtain ⟨b1, v, bd, rfl, hv, ht, hb⟩ := h
  obtain ⟨b1', v', bd', rfl, hv', ht', hb'⟩ := h'
  have h1 : Packet.read mode none (b1 :: (v ++ bd) ++ r) = (.ok p, r) :=
    read_ok_iff.2 ⟨b1, v, bd, by simp, hv, (by rintro ⟨m, hm, -⟩; cases hm), ht, hb⟩
  have h2 : Packet.read mode none (b1' :: (v' ++ bd') ++ r') = (.ok p', r') :=
    read_ok_iff.2 ⟨b1', v', bd', by simp, hv', (by rintro ⟨m, hm, -⟩; cases hm), ht', hb'⟩
  rw [he, h2] at h1
  simp only [Prod.mk.injEq, Out.ok.injEq] at h1
  obtain ⟨rfl, rfl⟩ := h1
  exact ⟨List.append_cancel_right he, rfl, rfl⟩

/-! ### Frames that conform to MQTT 5 -/

theorem conforms_frame {f : Bytes} {p : Packet} {ps : List Property} (h : Conforms f p ps) :
    ∃ b1 flags bd, FrameOf b1 bd f ∧ b1.toNat = 16 * typeNum p + flags ∧ flags < 16 ∧
      Body5 flags bd p ps ∧ (f.length = 3 → bd.length ≤ 1) ∧ (bd.length = 1 → f.length = 3) := by
  obtain ⟨flags, bd, hb, hl, rfl⟩ := h
  obtain ⟨h1, h2⟩ := body5_flags hb
  refine ⟨_, flags, bd, ⟨_, rfl, varint_rep hl⟩, ofNat_small (by omega), h1, hb, ?_, ?_⟩
  · intro h3
    have := varint_length_pos bd.length
    simp only [List.length_cons, List.length_append] at h3
    omega
  · intro h3
    rw [h3]; simp [varint, h3]

/-- C40 (partial): a frame that conforms to MQTT 5 is accepted and decoded to its packet, unless it
is of one of the three kinds that `Supported` excludes. -/
theorem C40_conforming_partial (mode : StrMode) (max : Option Nat) (f r : Bytes) (p : Packet)
    (ps : List Property) (n : Nat) (h : Conforms f p ps) (hn : RemLen f n) (hm : Admits max n)
    (hs : Supported mode f p ps) : Packet.read mode max (f ++ r) = (.ok p, r) := by
  obtain ⟨b1, flags, bd, ⟨v, hf, hv⟩, h1, h2, hb, h3, h4⟩ := conforms_frame h
  obtain ⟨b1', v', bd', hf', hv', rfl⟩ := hn
  rw [hf] at hf'
  simp only [List.cons.injEq] at hf'
  obtain ⟨-, hn, -⟩ := varintRep_unique hv hv' hf'.2
  refine frame_ok ⟨v, hf, hv⟩ (hn ▸ hm) (by omega) ?_ r
  rw [h1]
  refine body5_rep hb ?_ ?_ ?_
  · rintro d rfl; exact fun e => hs (h4 e)
  · rintro q rfl; exact hs
  · rintro c w l rfl; exact hs

/-- C40, exact: a conforming frame is decoded to its packet if and only if it is supported; an
unsupported CONNECT or DISCONNECT is refused (an unsupported PUBLISH may be mis-decoded). -/
theorem C40_conforming_iff (mode : StrMode) (max : Option Nat) (f r : Bytes) (p : Packet)
    (ps : List Property) (n : Nat) (h : Conforms f p ps) (hn : RemLen f n) (hm : Admits max n) :
    (Packet.read mode max (f ++ r) = (.ok p, r) ↔ Supported mode f p ps) ∧
    (∀ d, p = .Disconnect d → ¬ Supported mode f p ps →
      Packet.read mode max (f ++ r) = (.err (.InsufficientBytes 1), r)) ∧
    (∀ c w l, p = .Connect c w l → ¬ Supported mode f p ps →
      Packet.read mode max (f ++ r) = (.err .TopicNotUtf8, r)) := by
  have hdis : ∀ d, p = .Disconnect d → ¬ Supported mode f p ps →
      Packet.read mode max (f ++ r) = (.err (.InsufficientBytes 1), r) := by
    rintro d rfl hns
    obtain ⟨b1, flags, bd, ⟨v, hf, hv⟩, h1, h2, hb, h3, h4⟩ := conforms_frame h
    have hf3 : f.length = 3 := Classical.byContradiction fun h => hns h
    have hbd := h3 hf3
    have hlen : bd.length = 1 := by
      have h6 : bd.length = 0 ∨ bd.length = 1 := by omega
      rcases h6 with h6 | h6
      · exfalso
        obtain ⟨flags', bd', hb', hl', hf'⟩ := h
        rw [hf'] at hf
        simp only [List.cons.injEq] at hf
        obtain ⟨e1, -, e2⟩ := varintRep_unique (varint_rep hl') hv hf.2
        subst e2
        rw [hf', h6] at hf3
        simp [varint, h6] at hf3
      · exact h6
    have hm' : Admits max 1 := by
      obtain ⟨b1', v', bd', hf', hv', rfl⟩ := hn
      rw [hf] at hf'
      simp only [List.cons.injEq] at hf'
      obtain ⟨-, hn, -⟩ := varintRep_unique hv hv' hf'.2
      rw [← hlen, hn]; exact hm
    have hcode : flags = 0 ∧ ∃ rc, bd = [disconnectCode rc] := by
      cases hb with
      | disconnect0 => simp at hlen
      | disconnect1 => exact ⟨rfl, _, rfl⟩
      | disconnect hsec =>
        have := varint_length_pos (encProps ps).length
        rw [hsec.bytes] at hlen
        simp only [propSection, List.length_append, List.length_singleton] at hlen
        omega
    obtain ⟨rfl, rc, rfl⟩ := hcode
    have hb1 : b1 = 0xE0 := UInt8.toNat_inj.1 (by rw [h1]; rfl)
    subst hb1
    exact (C38_disconnect_exception mode max _ f r ⟨v, hf, hv⟩ hm').1 ⟨rc, rfl⟩
  have hcon : ∀ c w l, p = .Connect c w l → ¬ Supported mode f p ps →
      Packet.read mode max (f ++ r) = (.err .TopicNotUtf8, r) := by
    rintro c w l rfl hns
    cases l with
    | none => exact absurd trivial hns
    | some l =>
      have hns' : ¬ TextOk mode l.password := hns
      cases mode with
      | binary => exact absurd (fun h => by cases h) hns'
      | utf8 =>
        have hbin := C40_conforming_partial .binary max f r _ ps n h hn hm
          (show TextOk .binary l.password from fun h => by cases h)
        refine C27_refused max _ r _ hbin ?_
        rintro ⟨h1, -⟩
        exact hns' fun _ => h1 l.password (by simp [texts])
  refine ⟨⟨fun hr => ?_, C40_conforming_partial mode max f r p ps n h hn hm⟩, hdis, hcon⟩
  refine Classical.byContradiction fun hns => ?_
  cases p with
  | Disconnect d => rw [hdis d rfl hns] at hr; simp at hr
  | Connect c w l => rw [hcon c w l rfl hns] at hr; simp at hr
  | Publish q =>
    obtain ⟨b1, flags, bd, hf, h1, h2, hb, -⟩ := conforms_frame h
    obtain ⟨-, -, -, hrep⟩ := frame_ok_inv hf hr
    refine hns ?_
    obtain ⟨-, -, -, -, -, ps', s', hbody, hsec, -⟩ := hrep
    cases hb with
    | publish0 _ _ h4 =>
      simp only [if_true, List.append_nil] at hbody
      replace hbody := List.append_cancel_left (List.append_cancel_right hbody)
      subst hbody
      exact h4.driftSafe hsec
    | publish _ _ hq _ _ h4 =>
      simp only [hq, if_false] at hbody
      replace hbody := List.append_cancel_left (List.append_cancel_right hbody)
      subst hbody
      exact h4.driftSafe hsec
  | _ => exact hns trivial

/-- C40 (partial): a conforming frame other than PUBLISH is never decoded to anything but its
packet, and neither is a PUBLISH in which the miscount does no harm. -/
theorem C40_no_misdecoding_partial (mode : StrMode) (max : Option Nat) (f r r' : Bytes)
    (p q : Packet) (ps : List Property) (h : Conforms f p ps)
    (hp : (∀ x, p ≠ .Publish x) ∨ DriftSafe ps)
    (hr : Packet.read mode max (f ++ r) = (.ok q, r')) : q = p ∧ r' = r := by
  obtain ⟨b1, flags, bd, ⟨v, hf, hv⟩, -⟩ := conforms_frame h
  have hm : Admits max bd.length := (frame_ok_inv ⟨v, hf, hv⟩ hr).2.1
  obtain ⟨h1, h2, h3⟩ := C40_conforming_iff mode max f r p ps _ h ⟨b1, v, bd, hf, hv, rfl⟩ hm
  by_cases hs : Supported mode f p ps
  · rw [h1.2 hs] at hr
    simp only [Prod.mk.injEq, Out.ok.injEq] at hr
    exact ⟨hr.1.symm, hr.2.symm⟩
  · cases p with
    | Disconnect d => rw [h2 d rfl hs] at hr; simp at hr
    | Connect c w l => rw [h3 c w l rfl hs] at hr; simp at hr
    | Publish q =>
      rcases hp with hp | hp
      · exact absurd rfl (hp q)
      · exact absurd hp hs
    | _ => exact absurd trivial hs

/-- C40 is false in full: an MQTT 5 PUBLISH with three subscription identifiers is decoded to
another packet (the last identifier ends up in the payload). -/
theorem C40_counterexample :
    ∃ f p q ps, Conforms f p ps ∧ Packet.read .utf8 none f = (.ok q, []) ∧ q ≠ p := by
  refine ⟨[0x30, 11, 0, 1, 0x61, 6, 0x0B, 1, 0x0B, 2, 0x0B, 3, 0xDE],
    .Publish {
      dup := false, qos := .AtMostOnce, retain := false, topic := [0x61], pkid := 0,
      payload := [0xDE], properties := propsOf Spec.PublishProperties.ofList
        [.subscriptionIdentifier 1, .subscriptionIdentifier 2, .subscriptionIdentifier 3] },
    .Publish {
      dup := false, qos := .AtMostOnce, retain := false, topic := [0x61], pkid := 0,
      payload := [0x0B, 3, 0xDE], properties := propsOf Spec.PublishProperties.ofList
        [.subscriptionIdentifier 1, .subscriptionIdentifier 2] },
    [.subscriptionIdentifier 1, .subscriptionIdentifier 2, .subscriptionIdentifier 3], ?_,
    by decide +kernel, by decide +kernel⟩
  refine ⟨0, _, .publish0 (topic := [0x61]) (s := [6, 0x0B, 1, 0x0B, 2, 0x0B, 3])
    (payload := [0xDE]) (by decide) (.inl name_a)
    ⟨by decide +kernel, by decide +kernel, by decide +kernel, ?_, ?_⟩ (by simp [Payload5]),
    by decide +kernel, by decide +kernel⟩
  · intro p hp
    simp only [List.mem_cons, List.not_mem_nil, or_false] at hp
    rcases hp with rfl | rfl | rfl <;> exact ⟨by decide, by decide⟩
  · intro k hk
    have h2 : ((11 : UInt8) = k) = False := by
      rw [eq_iff_iff, iff_false]; rintro rfl; exact hk (by decide)
    simp [Property.id, h2]

/-- A conforming CONNECT whose password is not UTF-8; it is supported only with `binary_string`. -/
example : Conforms
      [0x10, 17, 0, 4, 0x4D, 0x51, 0x54, 0x54, 5, 0x40, 0, 60, 0, 0, 1, 0x63, 0, 1, 0xFF]
      (.Connect {
          keep_alive := 60, client_id := [0x63], clean_start := false, properties := none }
        none (some { username := [], password := [0xFF] })) [] ∧
    Packet.read .utf8 none
        [0x10, 17, 0, 4, 0x4D, 0x51, 0x54, 0x54, 5, 0x40, 0, 60, 0, 0, 1, 0x63, 0, 1, 0xFF] =
      (.err .TopicNotUtf8, []) := by
  have h := Body5.connect (flags := 0x40) (keepAlive := 60) (ps := []) (s := [0])
    (clientId := [0x63]) (user := []) (pass := [0xFF]) (by decide) (by decide)
    ⟨by decide +kernel, by decide, by simp, by simp, by simp⟩ (by simp [Auth5])
    ⟨by decide, ⟨['c'], by decide⟩, by decide⟩ ⟨fun h => absurd h (by decide), by decide⟩
  exact ⟨⟨0, _, h, by decide +kernel, by decide +kernel⟩, by decide +kernel⟩

/-- A conforming DISCONNECT (server busy) that is refused. -/
example : Conforms [0xE0, 1, 0x89]
      (.Disconnect { reason_code := .ServerBusy, properties := none }) [] ∧
    Packet.read .utf8 none [0xE0, 1, 0x89] = (.err (.InsufficientBytes 1), []) :=
  ⟨⟨0, _, .disconnect1, by decide, by decide +kernel⟩, by decide +kernel⟩

/-- A conforming and supported SUBSCRIBE. -/
example : ∃ p, Conforms [0x82, 9, 0, 7, 2, 0x0B, 5, 0, 1, 0x61, 0x26] p
      [.subscriptionIdentifier 5] ∧
    Packet.read .utf8 none [0x82, 9, 0, 7, 2, 0x0B, 5, 0, 1, 0x61, 0x26] = (.ok p, []) := by
  refine ⟨_, ⟨2, _, .subscribe (pkid := 7) (items := [([0x61], 0x26)])
    (fs := [{
      path := [0x61], qos := .ExactlyOnce, nolocal := true, preserve_retain := false,
      retain_forward_rule := .Never }]) (s := [2, 0x0B, 5]) (by decide)
    ⟨by decide +kernel, by decide +kernel, by decide +kernel, ?_, ?_⟩ (by simp)
    (.cons rfl (optionsAre_iff.2 (by decide)) .nil) ?_ (by simp [NoLocal5, IsShared]), by decide +kernel, by decide +kernel⟩,
    by decide +kernel⟩
  · intro p hp
    simp only [List.mem_cons, List.not_mem_nil, or_false] at hp
    subst hp; exact ⟨by decide, by decide⟩
  · intro k _
    exact Nat.le_trans (List.length_filter_le _ _) (by simp)
  · intro i hi
    simp only [List.mem_cons, List.not_mem_nil, or_false] at hi
    subst hi; exact ⟨filter_a, by decide⟩

/-! ### C43 -/

/-- C43 (partial): what a successful write of a packet within the value rules of MQTT 5 appends is a
conforming MQTT 5 frame for it (up to `norm`: empty records count as absent). Excluded are the two
kinds of DISCONNECT of C08 (`Sound`), and CONNECT into a non-empty buffer (C11). -/
theorem C43_written_conforms_partial (p : Packet) (b b' : Bytes) (n : Nat)
    (h : p.write b = (.ok n, b')) (hv : Values5 p) (hs : Sound p) (hb : IsConnect p → b = []) :
    ∃ f ps, b' = b ++ f ∧ Conforms f (norm p) ps := by
  obtain ⟨he, -, rfl⟩ := write_ok_inv h hs hb
  obtain ⟨flags, h1, h2⟩ := written_body5 he hv hs
  refine ⟨encode p, mainProps p, rfl, flags, body p, h2, he.2.2.1, ?_⟩
  rw [norm_typeNum, ← h1, UInt8.ofNat_toNat]
  rfl

/-- C43 is false in full: what is written for a DISCONNECT with a reason and no properties is no
MQTT 5 frame at all. -/
theorem C43_counterexample :
    ∃ p n buf, Values5 p ∧ p.write [] = (.ok n, buf) ∧ ∀ q ps, ¬ Conforms buf q ps := by
  refine ⟨.Disconnect { reason_code := .ServerBusy, properties := none }, 3,
    [0xE0, 1, 0x89, 0], ⟨by simp [props, optList], trivial⟩, by decide +kernel, ?_⟩
  rintro q ps ⟨flags, bd, -, hl, hf⟩
  simp only [List.cons.injEq] at hf
  have h1 : VarintRep [1] 1 := varintRep_small 1 (by decide)
  obtain ⟨-, h2, h3⟩ := varintRep_unique h1 (varint_rep hl) (r := [0x89, 0]) hf.2
  rw [← h3] at h2
  simp at h2

/-- C43, exactly, wherever the packet is not a CONNECT behind other bytes: what is written conforms
to MQTT 5 if and only if the packet is not a DISCONNECT with a reason and without properties. -/
theorem C43_iff (p : Packet) (b b' : Bytes) (n : Nat) (h : p.write b = (.ok n, b'))
    (hv : Values5 p) (hb : IsConnect p → b = []) :
    (∃ f ps, b' = b ++ f ∧ Conforms f (norm p) ps) ↔ ¬ Lossy p := by
  constructor
  · rintro ⟨f, ps, rfl, flags, bd, hbd, hl, rfl⟩ hlossy
    cases p
    case Disconnect d =>
      obtain ⟨h1, h2⟩ := hlossy
      have hs : ¬ Sound (.Disconnect d) := by
        intro hs
        cases hd : d.properties with
        | none => simp only [Sound, hd] at hs; exact h2 hs
        | some q => simp only [Sound, hd] at hs; rw [hd] at h1; exact hs h1
      replace h : d.write b = _ := h
      rcases unsound_emits hs with ⟨-, -, hw⟩ | ⟨q, hq, -, hw⟩
      · rw [hw b, Prod.mk.injEq, List.append_cancel_left_eq] at h
        have h' := h.2
        simp only [List.cons.injEq] at h'
        obtain ⟨-, h4, h5⟩ := varintRep_unique (varintRep_small 1 (by decide)) (varint_rep hl)
          (r := [disconnectCode d.reason_code, 0]) h'.2
        rw [← h5] at h4
        simp at h4
      · rw [hw b, Prod.mk.injEq, List.append_cancel_left_eq] at h
        have h' := h.2
        simp only [List.cons.injEq] at h'
        obtain ⟨-, h4, h5⟩ := varintRep_unique (varintRep_small 0 (by decide)) (varint_rep hl)
          (r := []) h'.2
        subst h5
        generalize hp : norm (.Disconnect d) = p' at hbd
        cases hbd <;> simp [norm] at hp
        exact h2 hp.1
    all_goals exact hlossy
  · intro hlossy
    by_cases hs : Sound p
    · exact C43_written_conforms_partial p b b' n h hv hs hb
    · obtain ⟨d, rfl⟩ := unsound_cases hs
      replace h : d.write b = _ := h
      rcases unsound_emits hs with ⟨h1, h2, hw⟩ | ⟨q, h1, h2, hw⟩
      · exact absurd ⟨by simp [h1, optList], h2⟩ hlossy
      · rw [hw b, Prod.mk.injEq] at h
        have hr : d.reason_code = .NormalDisconnection :=
          Classical.byContradiction fun h3 => hlossy ⟨by simp [h1, optList, h2], h3⟩
        have hn : norm (.Disconnect d) =
            .Disconnect { reason_code := .NormalDisconnection, properties := none } := by
          simp [norm, h1, normProps, h2, hr]
        refine ⟨[0xE0, 0], [], h.2.symm, 0, [], ?_, by decide, ?_⟩
        · rw [hn]; exact .disconnect0
        · rw [hn]; decide +kernel

/-- A SUBSCRIBE within the value rules. -/
example : ∃ p n buf, IsConnect p = False ∧ Values5 p ∧ Sound p ∧ p.write [7] = (.ok n, buf) := by
  refine ⟨.Subscribe {
    pkid := 7, filters := [{
      path := [0x61], qos := .ExactlyOnce, nolocal := true, preserve_retain := false,
      retain_forward_rule := .Never }],
    properties := some { id := some 5, user_properties := [] } }, 11,
    [7, 0x82, 9, 0, 7, 2, 0x0B, 5, 0, 1, 0x61, 0x26], rfl, ⟨?_, by decide, by simp, ?_,
      by simp [NoLocal5, IsShared]⟩, trivial,
    by decide +kernel⟩
  · intro q hq
    have : q = .subscriptionIdentifier 5 := by
      simpa [props, optList, Spec.SubscribeProperties.toList, one, users] using hq
    subst this; exact ⟨by decide, by decide⟩
  · intro f hf
    simp only [List.mem_cons, List.not_mem_nil, or_false] at hf
    subst hf; exact filter_a

end Props
