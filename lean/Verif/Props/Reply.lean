import Verif.Spec.Reply
import Verif.Props.Relay
/-
C71: every packet that was read can be answered.
-/
namespace Props

open Mqtt Spec

theorem seqRep_length {α : Type} {R : α → Bytes → Prop} {k : Nat} {xs : List α} {w : Bytes}
    (h : SeqRep R xs w) (hk : ∀ x w, R x w → k ≤ w.length) : k * xs.length ≤ w.length := by
  induction h with
  | nil => simp
  | cons hr _ ih =>
    have := hk _ _ hr
    rw [List.length_append, List.length_cons, Nat.mul_add, Nat.mul_one]
    omega

theorem propSec_pos {mode : StrMode} {ids : List UInt8} {ps : Option (List Property)} {s : Bytes}
    (h : PropSec mode ids ps s) : 1 ≤ s.length := by
  cases h with
  | absent hv => exact hv.length_pos
  | present hv _ _ _ _ =>
    have := hv.length_pos
    rw [List.length_append]; omega

theorem ackTail_none_length {α : Type} (code : UInt8) (toList : α → List Property) :
    (ackTail code toList none).length ≤ 2 := by
  have : propSection [] = [0] := by decide +kernel
  show (if code = 0 then ([] : Bytes) else code :: propSection []).length ≤ 2
  by_cases h : code = 0 <;> simp [h, this]

theorem u16_length (x : UInt16) : (u16 x).length = 2 := by simp [u16]

theorem str_length (x : Bytes) : (str x).length = 2 + x.length := by simp [str, u16]; omega

theorem propSection_nil : propSection [] = [0] := by decide +kernel

/-- The answer is encodable, in normal form, and not longer than what it answers, or nearly so. -/
theorem reply_facts {mode : StrMode} {b1 : Nat} {bd : Bytes} {p q : Packet} (hq : Reply p q)
    (h : BodyRep mode b1 bd p) (hn : bd.length ≤ 268435455) :
    Encodable q ∧ StringsOk mode q ∧ norm q = q ∧ Sound q ∧ ¬ IsConnect q ∧
    (body q).length ≤ (if IsRecOrRel p then 4 else bd.length) ∧
    (IsRecOrRel p → 2 ≤ bd.length) ∧ (Readable q ↔ ¬ NoFilters p) := by
  suffices (∀ s ∈ fields q, s.length ≤ 65535) ∧ (∀ x ∈ props q, x.Fits) ∧
      ((∀ p, q ≠ .Publish p) ∧ ∀ p, q = .ConnAck p → connAckCode p.code ≠ none) ∧ StringsOk mode q ∧ norm q = q ∧ Sound q ∧ ¬ IsConnect q ∧
      (body q).length ≤ (if IsRecOrRel p then 4 else bd.length) ∧
      (IsRecOrRel p → 2 ≤ bd.length) ∧ (Readable q ↔ ¬ NoFilters p) by
    obtain ⟨h1, h2, h3, h4, h5, h6, h7, h8, h9, h10⟩ := this
    refine ⟨⟨h1, h2, ?_, by
      cases q <;> first | trivial | exact absurd rfl (h3.1 _) | exact h3.2 _ rfl⟩, h4, h5, h6, h7, h8, h9, h10⟩
    refine Nat.le_trans h8 ?_
    unfold maxVarint
    split <;> omega
  cases hq with
  | connack hc =>
    obtain ⟨fl, ps, s, ww, wl, tr, rfl, -, -, -, -, -⟩ := h
    refine ⟨by simp [fields, texts], by simp [props, optList], ⟨by simp, by rintro _ ⟨⟩; exact hc⟩, by simp [StringsOk, texts, props,
      optList], by simp [norm, normProps], trivial, by simp [IsConnect], ?_, by simp [IsRecOrRel],
      by simp [Readable, NoFilters]⟩
    simp [body, optSection, propSection_nil, IsRecOrRel, str_length, u16_length]
    omega
  | @puback p reason hqos =>
    obtain ⟨-, -, -, -, -, ps, s, rfl, hs, -⟩ := h
    have := propSec_pos hs
    have := ackTail_none_length (pubAckCode reason) Spec.PubAckProperties.toList
    refine ⟨by simp [fields, texts], by simp [props, optList], by simp, by simp [StringsOk, texts, props,
      optList], by simp [norm, normProps], trivial, by simp [IsConnect], ?_, by simp [IsRecOrRel],
      by simp [Readable, NoFilters]⟩
    simp [body, IsRecOrRel, str_length, u16_length, hqos]
    omega
  | @pubrec p reason hqos =>
    obtain ⟨-, -, -, -, -, ps, s, rfl, hs, -⟩ := h
    have := propSec_pos hs
    have := ackTail_none_length (pubRecCode reason) Spec.PubRecProperties.toList
    refine ⟨by simp [fields, texts], by simp [props, optList], by simp, by simp [StringsOk, texts, props,
      optList], by simp [norm, normProps], trivial, by simp [IsConnect], ?_, by simp [IsRecOrRel],
      by simp [Readable, NoFilters]⟩
    simp [body, IsRecOrRel, str_length, u16_length, hqos]
    omega
  | @pubrel p reason =>
    obtain ⟨w, rfl, -⟩ := h
    have := ackTail_none_length (pubRelCode reason) Spec.PubRelProperties.toList
    refine ⟨by simp [fields, texts], by simp [props, optList], by simp, by simp [StringsOk, texts, props,
      optList], by simp [norm, normProps], trivial, by simp [IsConnect], ?_,
      by simp [u16_length], by simp [Readable, NoFilters]⟩
    simp [body, IsRecOrRel, u16_length]
    omega
  | @pubcomp p reason =>
    obtain ⟨w, rfl, -⟩ := h
    have := ackTail_none_length (pubCompCode reason) Spec.PubCompProperties.toList
    refine ⟨by simp [fields, texts], by simp [props, optList], by simp, by simp [StringsOk, texts, props,
      optList], by simp [norm, normProps], trivial, by simp [IsConnect], ?_,
      by simp [u16_length], by simp [Readable, NoFilters]⟩
    simp [body, IsRecOrRel, u16_length]
    omega
  | @suback p codes hl =>
    obtain ⟨hne, ps, s, w, rfl, hs, -, hw⟩ := h
    have := propSec_pos hs
    have := seqRep_length (k := 3) hw (by
      rintro x w ⟨-, o, -, rfl⟩
      simp [str_length])
    refine ⟨by simp [fields, texts], by simp [props, optList], by simp, by simp [StringsOk, texts, props,
      optList], by simp [norm, normProps], trivial, by simp [IsConnect], ?_, by simp [IsRecOrRel], ?_⟩
    · simp [body, optSection, propSection_nil, IsRecOrRel, u16_length]
      omega
    · have : codes ≠ [] := by
        intro h; subst h
        exact hne (List.eq_nil_of_length_eq_zero hl.symm)
      simp [Readable, NoFilters, this]
  | @unsuback p codes hl =>
    obtain ⟨ps, s, w, rfl, hs, -, hw⟩ := h
    have := propSec_pos hs
    have := seqRep_length (k := 2) hw (by
      rintro x w ⟨-, rfl⟩
      simp [str_length])
    refine ⟨by simp [fields, texts], by simp [props, optList], by simp, by simp [StringsOk, texts, props,
      optList], by simp [norm, normProps], trivial, by simp [IsConnect], ?_, by simp [IsRecOrRel], ?_⟩
    · simp [body, optSection, propSection_nil, IsRecOrRel, u16_length]
      omega
    · simp only [Readable, NoFilters]
      refine not_congr ?_
      rw [← List.length_eq_zero_iff, ← List.length_eq_zero_iff, hl]
  | pingresp =>
    refine ⟨by simp [fields, texts], by simp [props], by simp, by simp [StringsOk, texts, props],
      rfl, trivial, by simp [IsConnect], by simp [body], by simp [IsRecOrRel],
      by simp [Readable, NoFilters]⟩

/-- C71: every packet that was read can be answered: the answer is written, behind anything, and is
no longer than the frame that it answers, or, in answer to PUBREC and PUBREL, at most two bytes
longer. -/
theorem C71_written (mode : StrMode) (max : Option Nat) (b r : Bytes) (p q : Packet)
    (h : Packet.read mode max b = (.ok p, r)) (hq : Reply p q) (buf : Bytes) :
    ∃ w, q.write buf = (.ok w.length, buf ++ w) ∧ w.length + r.length ≤ b.length + 2 ∧
      (¬ IsRecOrRel p → w.length + r.length ≤ b.length) := by
  obtain ⟨b1, v, bd, rfl, hv, -, -, hb⟩ := read_ok_iff.1 h
  obtain ⟨h1, -, -, h4, h5, h6, h7, -⟩ := reply_facts hq hb hv.le
  refine ⟨encode q, write_encode h1 h4 (fun h => absurd h h5), ?_⟩
  have e : (encode q).length = 1 + (varint (body q).length).length + (body q).length := by
    simp [encode, frame]; omega
  have hmin := varint_minimal hv
  have hpos := hv.length_pos
  simp only [List.length_cons, List.length_append]
  rw [e]
  by_cases hp : IsRecOrRel p
  · rw [if_pos hp] at h6
    have := h7 hp
    have hv1 : (varint (body q).length).length = 1 := by
      rw [varint, if_pos (by omega)]; rfl
    exact ⟨by omega, fun h => absurd hp h⟩
  · rw [if_neg hp] at h6
    have := varint_length_mono h6
    exact ⟨by omega, fun _ => by omega⟩

/-- C71: and the peer reads it as it was meant, whatever follows, exactly if the packet that is
answered is not an UNSUBSCRIBE without topic filters. -/
theorem C71_read_iff (mode : StrMode) (max : Option Nat) (b r : Bytes) (p q : Packet)
    (h : Packet.read mode max b = (.ok p, r)) (hq : Reply p q) (w : Bytes) (k : Nat)
    (hw : q.write [] = (.ok k, w)) (max' : Option Nat) (hm : Admits max' w.length) (r' : Bytes) :
    Packet.read mode max' (w ++ r') = (.ok q, r') ↔ ¬ NoFilters p := by
  obtain ⟨b1, v, bd, rfl, hv, -, -, hb⟩ := read_ok_iff.1 h
  obtain ⟨h1, h2, h3, h4, h5, -, -, h8⟩ := reply_facts hq hb hv.le
  rw [← h8]
  have hm' : Admits max' (body q).length := by
    intro m e
    refine Nat.le_trans ?_ (hm m e)
    obtain ⟨-, -, rfl⟩ := write_ok_inv hw h4 (fun h => absurd h h5)
    simp [encode, frame]; omega
  constructor
  · intro h
    obtain ⟨_, _, _, -, -, -, -, hb'⟩ := read_ok_iff.1 h
    cases hq with
    | suback _ => exact hb'.1
    | unsuback _ => exact hb'.1
    | _ => trivial
  · intro hr
    have := round_trip hw h2 h4 hr hm' r'
    rwa [h3] at this

/-- C71 for whole conversations: if a sequence of packets was read from a stream, answers to any of
them can be written in their order, behind anything, in not more bytes than were read, apart from two
for each PUBREC and PUBREL; and if no UNSUBSCRIBE was without topic filters the peer reads exactly
these answers, in this order, whatever follows. -/
theorem C71_conversation (mode : StrMode) (max : Option Nat) (b r : Bytes) (ps qs : List Packet)
    (h : ReadAll mode max b ps r) (ha : Answers ps qs) (buf : Bytes) :
    ∃ out, WriteAll qs buf (buf ++ out) ∧
      out.length + r.length ≤ b.length + 2 * (ps.filter (fun p => decide (IsRecOrRel p))).length ∧
      ((∀ p ∈ ps, ¬ NoFilters p) → ∀ r', ReadAll mode none (out ++ r') qs r') := by
  induction h generalizing qs buf with
  | nil b =>
    cases ha
    exact ⟨[], by rw [List.append_nil]; exact .nil _, by simp, fun _ _ => .nil _⟩
  | @cons p ps b b1 b2 h1 _ ih =>
    have hlen : b1.length ≤ b.length := by
      obtain ⟨_, _, _, rfl, -⟩ := read_ok_iff.1 h1
      simp only [List.length_cons, List.length_append]; omega
    have hfil : (List.filter (fun p => decide (IsRecOrRel p)) (p :: ps)).length =
        (if IsRecOrRel p then 1 else 0) +
          (List.filter (fun p => decide (IsRecOrRel p)) ps).length := by
      by_cases hp : IsRecOrRel p <;> simp [List.filter_cons, hp, Nat.add_comm]
    rw [hfil]
    cases ha with
    | unanswered ha =>
      obtain ⟨out, h2, h3, h4⟩ := ih _ ha buf
      exact ⟨out, h2, by omega, fun hn => h4 fun q hq => hn q (.tail _ hq)⟩
    | @answered _ q _ qs hq ha =>
      obtain ⟨w, h5, h6, h7⟩ := C71_written mode max b b1 p q h1 hq buf
      obtain ⟨w', h5', -, -⟩ := C71_written mode max b b1 p q h1 hq []
      have hww : w' = w := by
        obtain ⟨_, _, _, -, hv, -, -, hb⟩ := read_ok_iff.1 h1
        obtain ⟨-, -, -, h4, h5c, -⟩ := reply_facts hq hb hv.le
        obtain ⟨-, -, e1⟩ := write_ok_inv h5 h4 (fun h => absurd h h5c)
        obtain ⟨-, -, e2⟩ := write_ok_inv h5' h4 (fun h => absurd h h5c)
        rw [List.append_cancel_left e1, List.append_cancel_left e2]
      subst hww
      obtain ⟨out, h2, h3, h4⟩ := ih _ ha (buf ++ w')
      refine ⟨w' ++ out, by rw [← List.append_assoc]; exact .cons h5 h2, ?_, fun hn r' => ?_⟩
      · rw [List.length_append]
        by_cases hp : IsRecOrRel p
        · rw [if_pos hp]; omega
        · have := h7 hp
          rw [if_neg hp]; omega
      · rw [List.append_assoc]
        refine .cons ?_ (h4 (fun q hq => hn q (.tail _ hq)) r')
        exact (C71_read_iff mode max b b1 p q h1 hq w' _ h5' none (by intro _ e; cases e) _).2
          (hn p (.head _))

/-- The exception is real: an UNSUBSCRIBE without topic filters is accepted, and the UNSUBACK
without reason codes that answers it is written, but then refused by the reader. -/
theorem C71_exception :
    Packet.read .utf8 none [0xA2, 3, 0, 7, 0] =
      (.ok (.Unsubscribe { pkid := 7, filters := [], properties := none }), []) ∧
    Reply (.Unsubscribe { pkid := 7, filters := [], properties := none })
      (.UnsubAck { pkid := 7, reasons := [], properties := none }) ∧
    Packet.write (.UnsubAck { pkid := 7, reasons := [], properties := none }) [] =
      (.ok 5, [0xB0, 3, 0, 7, 0]) ∧
    Packet.read .utf8 none [0xB0, 3, 0, 7, 0] = (.err .MalformedPacket, []) :=
  ⟨by decide +kernel, .unsuback rfl, by decide +kernel, by decide +kernel⟩

/-- The two bytes are needed: a PUBREL of four bytes answered by a PUBCOMP of six. -/
theorem C71_longer :
    Packet.read .utf8 none [0x62, 2, 0, 7] =
      (.ok (.PubRel { pkid := 7, reason := .Success, properties := none }), []) ∧
    Reply (.PubRel { pkid := 7, reason := .Success, properties := none })
      (.PubComp { pkid := 7, reason := .PacketIdentifierNotFound, properties := none }) ∧
    Packet.write (.PubComp { pkid := 7, reason := .PacketIdentifierNotFound, properties := none }) []
      = (.ok 6, [0x70, 4, 0, 7, 0x92, 0]) :=
  ⟨by decide +kernel, .pubcomp, by decide +kernel⟩

/-- A SUBSCRIBE with two filters and its answer. -/
example : ∃ p q, Packet.read .utf8 none [0x82, 11, 0, 9, 0, 0, 1, 0x61, 1, 0, 1, 0x23, 0] =
      (.ok p, []) ∧ Reply p q ∧ Packet.write q [] = (.ok 7, [0x90, 5, 0, 9, 0, 1, 0x87]) :=
  ⟨.Subscribe {
      pkid := 9, properties := none
      filters := [{ path := [0x61], qos := .AtLeastOnce, nolocal := false,
                    preserve_retain := false, retain_forward_rule := .OnEverySubscribe },
                  { path := [0x23], qos := .AtMostOnce, nolocal := false,
                    preserve_retain := false, retain_forward_rule := .OnEverySubscribe }] },
    .SubAck { pkid := 9, return_codes := [.Success .AtLeastOnce, .NotAuthorized],
              properties := none },
    by decide +kernel, .suback rfl, by decide +kernel⟩

/-- A QoS 2 message and the PUBREL that follows it are answered with PUBREC and PUBCOMP. -/
example : ∃ ps qs, ReadAll .utf8 none [0x34, 6, 0, 1, 0x74, 0, 5, 0, 0x62, 2, 0, 5] ps [] ∧
    Answers ps qs ∧ WriteAll qs [] [0x50, 2, 0, 5, 0x70, 2, 0, 5] := by
  refine ⟨[.Publish {
        dup := false, qos := .ExactlyOnce, retain := false, topic := [0x74], pkid := 5
        payload := [], properties := none },
      .PubRel { pkid := 5, reason := .Success, properties := none }],
    [.PubRec { pkid := 5, reason := .Success, properties := none },
      .PubComp { pkid := 5, reason := .Success, properties := none }], ?_, ?_, ?_⟩
  · exact .cons (b1 := [0x62, 2, 0, 5]) (by decide +kernel)
      (.cons (b1 := []) (by decide +kernel) (.nil _))
  · exact .answered (.pubrec rfl) (.answered .pubcomp .nil)
  · exact .cons (b1 := [0x50, 2, 0, 5]) (n := 4) (by decide +kernel)
      (.cons (b1 := [0x50, 2, 0, 5, 0x70, 2, 0, 5]) (n := 4) (by decide +kernel) (.nil _))

end Props
