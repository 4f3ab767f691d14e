import Verif.Proofs.Errors
import Verif.Proofs.Drain
import Verif.Props.Samples
/-
C19, C35, C37, C42: packet types, errors, and the readers of the single packet types.
-/
namespace Props

open Mqtt Spec

theorem advance_short {n : Nat} {b : Bytes} (h : b.length < n) : (advance n b).1 = .panic := by
  unfold advance
  rw [if_neg (by omega)]

theorem bind_panic {α β : Type} {m : M α} {f : α → M β} {b : Bytes} (h : (m b).1 = .panic) :
    ((m >>= f) b).1 = .panic := by
  rw [M.bind_apply]
  rcases hm : m b with ⟨o, b'⟩
  rw [hm] at h
  simp only at h
  subst h
  rfl

theorem neverPanics_of {α : Type} {m : M α} (h : Good m) : NeverPanics m := by
  intro b
  obtain ⟨h1, h2, -⟩ := h b
  cases ho : (m b).1 with
  | ok a => exact .inl ⟨a, rfl⟩
  | err e => exact .inr ⟨e, rfl⟩
  | panic => exact absurd ho h1
  | diverge => exact absurd ho h2

theorem panicsBelow_of {α : Type} {n : Nat} {m : M α} (h1 : ∀ b, b.length < n → (m b).1 = .panic)
    (h2 : ∀ hdr body, hdr.length = n → ∃ m', Good m' ∧ m (hdr ++ body) = m' body) :
    PanicsBelow n m := by
  refine fun b => ⟨h1 b, fun hb => ?_⟩
  obtain ⟨m', hg, he⟩ := h2 (b.take n) (b.drop n) (by simp; omega)
  rw [List.take_append_drop] at he
  rw [he]
  exact neverPanics_of hg _

/-! ### C19 -/

/-- C19 does not hold: the DISCONNECT frame with reason 0x89 and no property length, as MQTT 5
allows, is consumed although `InsufficientBytes(1)` is returned. -/
theorem C19_counterexample :
    Packet.read .utf8 none [0xE0, 0x01, 0x89, 0xC0, 0x00] =
      (.err (.InsufficientBytes 1), [0xC0, 0x00]) := by decide +kernel

/-- C19, the part that holds: `InsufficientBytes(k)` comes either with the stream unchanged, and
then the stream does not start with a complete frame (within the limit), or with `k = 1`, and then
exactly one complete frame is gone. Missing: that the second case does not occur. -/
theorem C19_insufficient_partial (mode : StrMode) (max : Option Nat) (b b' : Bytes) (k : Nat)
    (h : Packet.read mode max b = (.err (.InsufficientBytes k), b')) :
    (b' = b ∧ 1 ≤ k ∧ ¬ ∃ f n r, b = f ++ r ∧ RemLen f n ∧ Admits max n) ∨
    (k = 1 ∧ ∃ f n, b = f ++ b' ∧ RemLen f n ∧ Admits max n) := by
  have hc := read_cases mode max b
  rcases read_dichotomy mode max b with ⟨e, he, hno⟩ | ⟨f, n, r, o, rfl, hf, hm, hr⟩
  · rw [he] at h
    simp only [Prod.mk.injEq, Out.err.injEq] at h
    obtain ⟨rfl, rfl⟩ := h
    refine .inl ⟨rfl, ?_, hno⟩
    cases hc with
    | tooShort hb hr => rw [hr] at he; simp at he; omega
    | openHeader _ _ _ _ _ _ hr => rw [hr] at he; simp at he; omega
    | badHeader _ _ _ _ _ _ hr => rw [hr] at he; simp at he
    | overLimit _ _ _ _ _ _ _ _ _ hr => rw [hr] at he; simp at he
    | openBody _ _ _ _ _ _ _ hn hr => rw [hr] at he; simp at he; omega
    | frame b1 v bd r hb hv hm' hr =>
      exact absurd ⟨b1 :: (v ++ bd), bd.length, r, by rw [hb]; simp, ⟨b1, v, bd, rfl, hv, rfl⟩,
        not_overLimit.1 hm'⟩ hno
  · right
    rw [hr r] at h
    simp only [Prod.mk.injEq] at h
    obtain ⟨rfl, rfl⟩ := h
    refine ⟨?_, f, n, rfl, hf, hm⟩
    obtain ⟨b1, v, bd, rfl, hv, rfl⟩ := hf
    have h1 := hr []
    have h2 := read_frame (mode := mode) (b1 := b1) hv (not_overLimit.2 hm) []
    simp only [List.append_nil] at h1 h2
    rw [h1] at h2
    simp only [Prod.mk.injEq, and_true] at h2
    rcases frameOut_err h2.symm with ⟨-, h3⟩ | ⟨-, -, -, h3⟩ | ⟨-, h3⟩
    · simp at h3
    · simp at h3
    · generalize b1.toNat / 16 = t at h3
      unfold FrameError ContentError at h3
      split at h3 <;> simp at h3 <;> omega

/-- C19: for a frame whose body needs no property length the problem does not arise; PINGREQ as
an example of an incomplete and of a complete frame. -/
example : Packet.read .utf8 none [0xC0] = (.err (.InsufficientBytes 1), [0xC0]) := by
  decide +kernel

/-! ### C35 -/

/-- C35: the kind of a packet that is returned is given by the upper four bits of the first
byte. -/
theorem C35_type (mode : StrMode) (max : Option Nat) (b1 : UInt8) (s r : Bytes) (p : Packet)
    (h : Packet.read mode max (b1 :: s) = (.ok p, r)) : typeNum p = b1.toNat / 16 := by
  obtain ⟨b1', v, bd, he, -, -, ht, -⟩ := read_ok_iff.1 h
  simp only [List.cons.injEq] at he
  rw [he.1, ht]

/-- C35: types 0 and 15 are refused with the type number; the frame is consumed. -/
theorem C35_invalid_type (mode : StrMode) (max : Option Nat) (b1 : UInt8) (v body r : Bytes)
    (hv : VarintRep v body.length) (hm : Admits max body.length)
    (ht : b1.toNat / 16 = 0 ∨ b1.toNat / 16 = 15) :
    Packet.read mode max (b1 :: (v ++ (body ++ r))) =
      (.err (.InvalidPacketType (b1 >>> 4)), r) ∧ (b1 >>> 4).toNat = b1.toNat / 16 := by
  refine ⟨?_, (bits_disconnect b1).1⟩
  rw [read_frame hv (not_overLimit.2 hm)]
  unfold frameOut
  rw [packet_type_err (fh := FixedHeader.new b1 v.length body.length) ht]
  rfl

/-- C35: the other types are never refused with `InvalidPacketType`. -/
theorem C35_valid_type (mode : StrMode) (max : Option Nat) (b1 : UInt8) (s r : Bytes) (x : UInt8)
    (h : Packet.read mode max (b1 :: s) = (.err (.InvalidPacketType x), r)) :
    b1.toNat / 16 = 0 ∨ b1.toNat / 16 = 15 := by
  cases read_cases mode max (b1 :: s) with
  | tooShort hb hr => rw [hr] at h; simp at h
  | openHeader _ _ _ _ _ _ hr => rw [hr] at h; simp at h
  | badHeader _ _ _ _ _ _ hr => rw [hr] at h; simp at h
  | overLimit _ _ _ _ _ _ _ _ _ hr => rw [hr] at h; simp at h
  | openBody _ _ _ _ _ _ _ hn hr => rw [hr] at h; simp at h
  | frame b1' v bd r hb hv hm' hr =>
    rw [hr] at h
    simp only [Prod.mk.injEq] at h
    simp only [List.cons.injEq] at hb
    rw [hb.1]
    rcases frameOut_err h.1 with ⟨h3, -⟩ | ⟨-, -, -, h3⟩ | ⟨-, h3⟩
    · exact h3
    · simp at h3
    · generalize b1'.toNat / 16 = t at h3
      unfold FrameError ContentError at h3
      split at h3 <;> simp at h3

/-- C35: frames with remaining length zero (in whatever encoding): PINGREQ and PINGRESP are
accepted, DISCONNECT is accepted if the lower four bits of the first byte are zero, everything
else of types 1 to 11 is refused with `PayloadRequired`. -/
theorem C35_empty_body (mode : StrMode) (max : Option Nat) (b1 : UInt8) (v r : Bytes)
    (hv : VarintRep v 0) :
    Packet.read mode max (b1 :: (v ++ r)) =
      (if b1.toNat / 16 = 12 then .ok .PingReq
       else if b1.toNat / 16 = 13 then .ok .PingResp
       else if b1.toNat / 16 = 14 then
         (if b1.toNat % 16 = 0 then
            .ok (.Disconnect { reason_code := .NormalDisconnection, properties := none })
          else .err .MalformedPacket)
       else if b1.toNat / 16 = 0 ∨ b1.toNat / 16 = 15 then .err (.InvalidPacketType (b1 >>> 4))
       else .err .PayloadRequired, r) := by
  have hm : ¬ OverLimit max 0 := by rintro ⟨m, -, h⟩; omega
  have h1 := read_frame (mode := mode) (b1 := b1) (body := []) (max := max) hv hm r
  rw [List.nil_append] at h1
  rw [h1]
  congr 1
  have hbit := bits_disconnect b1
  unfold frameOut
  have hfh : ∀ k, (FixedHeader.new b1 k ([] : Bytes).length).remaining_len = 0 := fun _ => rfl
  have hb1 : ∀ k n, (FixedHeader.new b1 k n).byte1 = b1 := fun _ _ => rfl
  rcases packet_type_cases (FixedHeader.new b1 v.length ([] : Bytes).length) with ⟨ty, ht⟩ | ⟨h0, h1⟩
  · have ht' := packet_type_ok.1 ht
    rw [hb1] at ht'
    rw [ht, liftOut_ok, pure_bind, ht']
    cases ty
    case Disconnect =>
      rw [if_neg (by simp)]
      show ((onOwned (b1 :: (v ++ [])) (Mqtt.Disconnect.read mode
        (FixedHeader.new b1 v.length 0)) >>= fun p => pure (Packet.Disconnect p)) []).1 = _
      rw [onOwned_bind]
      unfold Mqtt.Disconnect.read
      have hadv : advance (FixedHeader.new b1 v.length 0).fixed_header_len (b1 :: (v ++ [])) =
          (.ok (), []) :=
        advance_hdr (hdr := b1 :: v) (body := []) (by simp [FixedHeader.new])
      have hty : b1 >>> 4 = PacketType.Disconnect.toU8 := UInt8.toNat_inj.1 (by rw [hbit.1, ht'])
      rw [M.bind_ok hadv]
      simp only [hb1, hty, ne_eq, not_true_eq_false, if_false]
      by_cases h4 : b1.toNat % 16 = 0
      · have : (b1 &&& 0b00001111) = 0 := UInt8.toNat_inj.1 (by rw [hbit.2, h4]; rfl)
        simp [this, h4, FixedHeader.new, PacketType.toU8, Disconnect.new]
      · have : ¬ (b1 &&& 0b00001111) = 0 := fun h => h4 (by rw [← hbit.2, h]; rfl)
        simp [this, h4, PacketType.toU8]
    all_goals simp [PacketType.toU8, throwE]
  · rw [hb1] at h0
    rw [h1, hb1]
    rcases h0 with h0 | h0 <;> simp [h0]

example : VarintRep [0x80, 0x00] 0 := ⟨[0x80], 0, rfl, by decide, by decide, by decide, rfl⟩
example : Packet.read .utf8 none [0xE0, 0x80, 0x00, 5] =
    (.ok (.Disconnect { reason_code := .NormalDisconnection, properties := none }), [5]) := by
  decide +kernel

/-! ### C37 -/

/-- C37: the readers of the single packet types, called directly with any fixed header: they panic
exactly if the bytes are shorter than the header says, and otherwise return `Ok` or `Err`. -/
theorem C37_typed_readers (mode : StrMode) (fh : FixedHeader) :
    PanicsBelow fh.fixed_header_len (Connect.read mode fh) ∧
    PanicsBelow fh.fixed_header_len (ConnAck.read mode fh) ∧
    PanicsBelow fh.fixed_header_len (PubAck.read mode fh) ∧
    PanicsBelow fh.fixed_header_len (PubRec.read mode fh) ∧
    PanicsBelow fh.fixed_header_len (PubRel.read mode fh) ∧
    PanicsBelow fh.fixed_header_len (PubComp.read mode fh) ∧
    PanicsBelow fh.fixed_header_len (Subscribe.read mode fh) ∧
    PanicsBelow fh.fixed_header_len (SubAck.read mode fh) ∧
    PanicsBelow fh.fixed_header_len (Unsubscribe.read mode fh) ∧
    PanicsBelow fh.fixed_header_len (UnsubAck.read mode fh) ∧
    PanicsBelow fh.fixed_header_len (Disconnect.read mode fh) := by
  refine ⟨?_, ?_, ?_, ?_, ?_, ?_, ?_, ?_, ?_, ?_, ?_⟩
  · exact panicsBelow_of (fun _ h => bind_panic (advance_short h)) fun _ _ => Connect.read_good
  · exact panicsBelow_of (fun _ h => bind_panic (advance_short h)) fun _ _ => ConnAck.read_good
  · exact panicsBelow_of (fun _ h => bind_panic (advance_short h)) fun _ _ => PubAck.read_good
  · exact panicsBelow_of (fun _ h => bind_panic (advance_short h)) fun _ _ => PubRec.read_good
  · exact panicsBelow_of (fun _ h => bind_panic (advance_short h)) fun _ _ => PubRel.read_good
  · exact panicsBelow_of (fun _ h => bind_panic (advance_short h)) fun _ _ => PubComp.read_good
  · exact panicsBelow_of (fun _ h => bind_panic (advance_short h)) fun _ _ => Subscribe.read_good
  · exact panicsBelow_of (fun _ h => bind_panic (advance_short h)) fun _ _ => SubAck.read_good
  · exact panicsBelow_of (fun _ h => bind_panic (advance_short h)) fun _ _ => Unsubscribe.read_good
  · exact panicsBelow_of (fun _ h => bind_panic (advance_short h)) fun _ _ => UnsubAck.read_good
  · exact panicsBelow_of (fun _ h => bind_panic (advance_short h)) fun _ _ => Disconnect.read_good

/-- C37: the number of bytes that a reader needs is determined by the reader. -/
theorem C37_boundary {α : Type} (m : M α) (n k : Nat) (h : PanicsBelow n m)
    (h' : PanicsBelow k m) : n = k := by
  have no : ∀ {n k : Nat}, PanicsBelow n m → PanicsBelow k m → ¬ n < k := by
    intro n k h h' hlt
    have h1 := (h' (List.replicate n 0)).1 (by simpa using hlt)
    rcases (h (List.replicate n 0)).2 (by simp) with ⟨a, h2⟩ | ⟨e, h2⟩ <;> rw [h1] at h2 <;> cases h2
  have := no h h'; have := no h' h
  omega

/-- C37: the reader of PUBLISH looks at the QoS bits first: QoS 3 is refused whatever the bytes
are, otherwise it behaves like the other readers. -/
theorem C37_publish_reader (mode : StrMode) (fh : FixedHeader) :
    (fh.byte1.toNat / 2 % 4 = 3 → ∀ b, Publish.read mode fh b = (.err (.InvalidQoS 3), b)) ∧
    (fh.byte1.toNat / 2 % 4 ≠ 3 → PanicsBelow fh.fixed_header_len (Publish.read mode fh)) := by
  have hq := (bits_publish fh.byte1).1
  constructor
  · intro h b
    have : (fh.byte1 &&& 0b0110) >>> 1 = 3 := UInt8.toNat_inj.1 (by rw [hq, h]; rfl)
    rw [Publish.read_eq]
    unfold qosOrErr
    rw [this]; rfl
  · intro h
    have hk : ∃ q, Mqtt.qos ((fh.byte1 &&& 0b0110) >>> 1) = some q := by
      cases hk : Mqtt.qos ((fh.byte1 &&& 0b0110) >>> 1) with
      | some q => exact ⟨q, rfl⟩
      | none =>
        unfold Mqtt.qos at hk
        rw [hq] at hk
        have : fh.byte1.toNat / 2 % 4 < 4 := by omega
        generalize fh.byte1.toNat / 2 % 4 = n at *
        rcases n with _ | _ | _ | _ | n <;> simp at * <;> omega
    obtain ⟨q, hk⟩ := hk
    refine panicsBelow_of (fun b hb => ?_) fun hdr body hh => ?_
    · rw [Publish.read_eq]
      unfold qosOrErr
      rw [hk]
      simp only [pure_bind]
      exact bind_panic (advance_short hb)
    · rw [Publish.read_eq]
      unfold qosOrErr
      rw [hk]
      simp only [pure_bind]
      exact ⟨publishRest mode fh.byte1 q, Good.publishRest fh.byte1 q, M.bind_ok (advance_hdr hh)⟩

/-- C37: the public readers of the parts of packets never panic. -/
theorem C37_part_readers (mode : StrMode) :
    NeverPanics (ConnectProperties.read mode) ∧ NeverPanics (LastWillProperties.read mode) ∧
    NeverPanics (ConnAckProperties.read mode) ∧ NeverPanics (PublishProperties.read mode) ∧
    NeverPanics (PubAckProperties.read mode) ∧ NeverPanics (PubRecProperties.read mode) ∧
    NeverPanics (PubRelProperties.read mode) ∧ NeverPanics (PubCompProperties.read mode) ∧
    NeverPanics (SubscribeProperties.read mode) ∧ NeverPanics (SubAckProperties.read mode) ∧
    NeverPanics (UnsubscribeProperties.read mode) ∧ NeverPanics (UnsubAckProperties.read mode) ∧
    NeverPanics (DisconnectProperties.extract mode) ∧ NeverPanics (Filter.read mode) ∧
    (∀ flags, NeverPanics (LastWill.read mode flags)) ∧
    (∀ flags, NeverPanics (Login.read mode flags)) := by
  refine ⟨neverPanics_of (props_good (ConnectProperties.read_eq mode)),
    neverPanics_of (props_good (LastWillProperties.read_eq mode)),
    neverPanics_of (props_good (ConnAckProperties.read_eq mode)),
    neverPanics_of (props_good (PublishProperties.read_eq mode)),
    neverPanics_of (props_good (PubAckProperties.read_eq mode)),
    neverPanics_of (props_good (PubRecProperties.read_eq mode)),
    neverPanics_of (props_good (PubRelProperties.read_eq mode)),
    neverPanics_of (props_good (PubCompProperties.read_eq mode)),
    neverPanics_of (props_good (SubscribeProperties.read_eq mode)),
    neverPanics_of (props_good (SubAckProperties.read_eq mode)),
    neverPanics_of (props_good (UnsubscribeProperties.read_eq mode)),
    neverPanics_of (props_good (UnsubAckProperties.read_eq mode)),
    neverPanics_of (props_good (DisconnectProperties.read_eq mode)),
    neverPanics_of Filter.read_good,
    fun x => neverPanics_of (LastWill.read_good x), fun x => neverPanics_of (Login.read_good x)⟩

example : (PubAck.read .utf8 (FixedHeader.new 0x40 1 2) [0x40]).1 = .panic := by decide +kernel
example : (Publish.read .utf8 (FixedHeader.new 0x36 1 2) []).1 = .err (.InvalidQoS 3) := by
  decide +kernel

/-! ### C42 -/

/-- C42: every error says what is wrong. With `b` the stream: `InsufficientBytes`,
`MalformedRemainingLength` and `PayloadSizeLimitExceeded` without consumption say that the frame is
not complete, that its header is malformed, that its remaining length exceeds the limit; errors with
consumption concern a complete frame and are those listed for the packet type in `FrameError`. -/
theorem C42_errors (mode : StrMode) (max : Option Nat) (b r : Bytes) (e : Err)
    (h : Packet.read mode max b = (.err e, r)) :
    (r = b ∧
      ((∃ k, e = .InsufficientBytes k ∧ 1 ≤ k) ∨
       (e = .MalformedRemainingLength ∧ ∃ b1 w s, b = b1 :: (w ++ s) ∧ w.length = 4 ∧
         ∀ x ∈ w, 128 ≤ x.toNat) ∨
       (∃ m n b1 v s, max = some m ∧ m < n ∧ b = b1 :: (v ++ s) ∧ VarintRep v n ∧
         e = .PayloadSizeLimitExceeded n m))) ∨
    (∃ b1 v body, b = b1 :: (v ++ (body ++ r)) ∧ VarintRep v body.length ∧
      Admits max body.length ∧
      (((b1.toNat / 16 = 0 ∨ b1.toNat / 16 = 15) ∧ e = .InvalidPacketType (b1 >>> 4)) ∨
       (1 ≤ b1.toNat / 16 ∧ b1.toNat / 16 ≤ 11 ∧ body = [] ∧ e = .PayloadRequired) ∨
       ((body ≠ [] ∨ b1.toNat / 16 = 14) ∧ FrameError mode (b1.toNat / 16) e))) := by
  cases read_cases mode max b with
  | tooShort hb hr =>
    rw [hr] at h; simp only [Prod.mk.injEq, Out.err.injEq] at h
    exact .inl ⟨h.2.symm, .inl ⟨_, h.1.symm, by omega⟩⟩
  | openHeader _ _ _ _ _ _ hr =>
    rw [hr] at h; simp only [Prod.mk.injEq, Out.err.injEq] at h
    exact .inl ⟨h.2.symm, .inl ⟨_, h.1.symm, by omega⟩⟩
  | badHeader b1 w s hb h4 hw hr =>
    rw [hr] at h; simp only [Prod.mk.injEq, Out.err.injEq] at h
    exact .inl ⟨h.2.symm, .inr (.inl ⟨h.1.symm, b1, w, s, hb, h4, hw⟩)⟩
  | overLimit b1 v s n m hb hv hm hn hr =>
    rw [hr] at h; simp only [Prod.mk.injEq, Out.err.injEq] at h
    exact .inl ⟨h.2.symm, .inr (.inr ⟨m, n, b1, v, s, hm, hn, hb, hv, h.1.symm⟩)⟩
  | openBody _ _ _ _ _ _ _ hn hr =>
    rw [hr] at h; simp only [Prod.mk.injEq, Out.err.injEq] at h
    exact .inl ⟨h.2.symm, .inl ⟨_, h.1.symm, by omega⟩⟩
  | frame b1 v bd s hb hv hm hr =>
    rw [hr] at h; simp only [Prod.mk.injEq] at h
    obtain ⟨h, rfl⟩ := h
    exact .inr ⟨b1, v, bd, hb, hv, not_overLimit.1 hm, frameOut_err h⟩

example : Packet.read .utf8 none [0x10, 0x07, 0, 4, 0x4D, 0x51, 0x54, 0x54, 4] =
    (.err (.InvalidProtocolLevel 4), []) := by decide +kernel

end Props
