import Verif.Proofs.TypedAgree
import Verif.Props.Samples
/-
C37 (continued), C45, C48: the readers of single packet types and `check`, used directly, against
`Packet::read`; which parts of a fixed header matter.
-/
namespace Props

open Mqtt Spec

/-! ### C45 -/

/-- C45: the reader of each packet type, given the remaining length and the bytes of a frame of
its type, returns what `Packet::read` returns for the frame. The bytes of the fixed header are
skipped without being looked at, and the first byte given in the header matters only for PUBLISH
(low four bits) and DISCONNECT (all bits). -/
theorem C45_typed_readers (mode : StrMode) :
    Agrees mode 1 (fun _ _ => True) (Connect.read mode) (fun x => .Connect x.1 x.2.1 x.2.2) ∧
    Agrees mode 2 (fun _ _ => True) (ConnAck.read mode) .ConnAck ∧
    Agrees mode 3 SameFlags (Publish.read mode) .Publish ∧
    Agrees mode 4 (fun _ _ => True) (PubAck.read mode) .PubAck ∧
    Agrees mode 5 (fun _ _ => True) (PubRec.read mode) .PubRec ∧
    Agrees mode 6 (fun _ _ => True) (PubRel.read mode) .PubRel ∧
    Agrees mode 7 (fun _ _ => True) (PubComp.read mode) .PubComp ∧
    Agrees mode 8 (fun _ _ => True) (Subscribe.read mode) .Subscribe ∧
    Agrees mode 9 (fun _ _ => True) (SubAck.read mode) .SubAck ∧
    Agrees mode 10 (fun _ _ => True) (Unsubscribe.read mode) .Unsubscribe ∧
    Agrees mode 11 (fun _ _ => True) (UnsubAck.read mode) .UnsubAck ∧
    Agrees mode 14 (· = ·) (Disconnect.read mode) .Disconnect := by
  refine ⟨?_, ?_, ?_, ?_, ?_, ?_, ?_, ?_, ?_, ?_, ?_, ?_⟩
  · exact agrees_of (ty := .Connect) (fun _ _ => rfl)
      fun h h' _ _ => congrArg Prod.fst (Connect.read_skip h h')
  · exact agrees_of (ty := .ConnAck) (fun _ _ => rfl)
      fun h h' _ _ => congrArg Prod.fst (ConnAck.read_skip h h')
  · exact agrees_of (ty := .Publish) (fun _ _ => rfl) fun h h' _ hs => Publish.read_skip h h' hs
  · exact agrees_of (ty := .PubAck) (fun _ _ => rfl)
      fun h h' hr _ => congrArg Prod.fst (PubAck.read_skip h h' hr)
  · exact agrees_of (ty := .PubRec) (fun _ _ => rfl)
      fun h h' hr _ => congrArg Prod.fst (PubRec.read_skip h h' hr)
  · exact agrees_of (ty := .PubRel) (fun _ _ => rfl)
      fun h h' hr _ => congrArg Prod.fst (PubRel.read_skip h h' hr)
  · exact agrees_of (ty := .PubComp) (fun _ _ => rfl)
      fun h h' hr _ => congrArg Prod.fst (PubComp.read_skip h h' hr)
  · exact agrees_of (ty := .Subscribe) (fun _ _ => rfl)
      fun h h' _ _ => congrArg Prod.fst (Subscribe.read_skip h h')
  · exact agrees_of (ty := .SubAck) (fun _ _ => rfl)
      fun h h' _ _ => congrArg Prod.fst (SubAck.read_skip h h')
  · exact agrees_of (ty := .Unsubscribe) (fun _ _ => rfl)
      fun h h' _ _ => congrArg Prod.fst (Unsubscribe.read_skip h h')
  · exact agrees_of (ty := .UnsubAck) (fun _ _ => rfl)
      fun h h' _ _ => congrArg Prod.fst (UnsubAck.read_skip h h')
  · exact agrees_of (ty := .Disconnect) (fun _ _ => rfl)
      fun h h' hr hs => congrArg Prod.fst (Disconnect.read_skip h h' hr hs)

/-- The hypotheses of `Agrees` can be met: a PUBACK frame, read with a header that says PUBLISH. -/
example : (PubAck.read .utf8 (FixedHeader.new 0x3F 1 4) [0, 0, 0, 7, 0x10, 0]).1 =
      .ok { pkid := 7, reason := .NoMatchingSubscribers, properties := none } ∧
    (Packet.read .utf8 none [0x40, 4, 0, 7, 0x10, 0]).1 =
      .ok (.PubAck { pkid := 7, reason := .NoMatchingSubscribers, properties := none }) := by
  decide +kernel

/-- C45: `check` succeeds exactly if the stream begins with a complete frame within the limit, and
the header it returns is that frame's: its type is the upper half of the first byte and
`frame_length` is the number of bytes of the frame. -/
theorem C45_check_ok (stream : Bytes) (max : Option Nat) (fh : FixedHeader) :
    check stream max = .ok fh ↔
      ∃ b1 v body rest, stream = b1 :: (v ++ (body ++ rest)) ∧ VarintRep v body.length ∧
        Admits max body.length ∧ fh = FixedHeader.new b1 v.length body.length ∧
        fh.frame_length = (b1 :: (v ++ body)).length := by
  constructor
  · intro h
    rcases check_cases max stream with ⟨e, -, h'⟩ | ⟨b1, v, body, rest, he, hv, hm, h'⟩
    · rw [h] at h'; cases h'
    · rw [h] at h'; cases h'
      refine ⟨b1, v, body, rest, he, hv, hm, rfl, ?_⟩
      simp [FixedHeader.new, FixedHeader.frame_length]; omega
  · rintro ⟨b1, v, body, rest, rfl, hv, hm, rfl, -⟩
    exact check_frame hv hm

/-- C45: `check` fails with an error exactly if that error describes the start of the stream. -/
theorem C45_check_err (stream : Bytes) (max : Option Nat) (e : Err) :
    check stream max = .err e ↔ HeadErr max stream e := by
  constructor
  · intro h
    rcases check_cases max stream with ⟨e', he, h'⟩ | ⟨b1, v, body, rest, he, hv, hm, h'⟩
    · rw [h] at h'; cases h'; exact he
    · rw [h] at h'; cases h'
  · exact check_headErr

/-- C45: `check` always returns, and what it returns is what `Packet::read` goes by: if it fails,
`Packet::read` fails with the same error and the stream unchanged; if it succeeds, `Packet::read`
takes `frame_length` bytes off the stream. -/
theorem C45_check_then_read (mode : StrMode) (stream : Bytes) (max : Option Nat) :
    (∃ e, check stream max = .err e ∧ Packet.read mode max stream = (.err e, stream)) ∨
    (∃ fh, check stream max = .ok fh ∧ fh.frame_length ≤ stream.length ∧
      (Packet.read mode max stream).2 = stream.drop fh.frame_length ∧
      (Packet.read mode max stream).1 =
        (Packet.read mode none (stream.take fh.frame_length)).1) := by
  rcases check_cases max stream with ⟨e, -, h⟩ | ⟨b1, v, body, rest, rfl, hv, hm, h⟩
  · exact .inl ⟨e, h, read_check_err h⟩
  · have hl : (FixedHeader.new b1 v.length body.length).frame_length =
        (b1 :: (v ++ body)).length := by
      simp [FixedHeader.new, FixedHeader.frame_length]; omega
    have he : b1 :: (v ++ (body ++ rest)) = (b1 :: (v ++ body)) ++ rest := by simp
    refine .inr ⟨_, h, ?_, ?_, ?_⟩
    · rw [hl, he]; simp
    · rw [read_frame hv (not_overLimit.2 hm), hl, he, List.drop_left]
    · rw [read_frame hv (not_overLimit.2 hm), hl, he, List.take_left]
      have := read_frame (mode := mode) (b1 := b1) (max := none) hv
        (not_overLimit.2 (fun _ h => by cases h)) []
      rw [List.append_nil] at this
      rw [this]

/-- Both cases occur. -/
example : check [0x40, 2, 0] none = .err (.InsufficientBytes 1) ∧
    check [0x40, 2, 0, 7, 0xC0] (some 2) = .ok (FixedHeader.new 0x40 1 2) := by decide +kernel

/-! ### C37, continued -/

/-- C37: the reader of DISCONNECT, called with the header of another packet type or with reserved
flags, refuses whatever the bytes are: with the type it found, or as malformed. -/
theorem C37_disconnect_reader (mode : StrMode) (fh : FixedHeader) (bytes : Bytes)
    (hl : fh.fixed_header_len ≤ bytes.length) :
    (fh.byte1.toNat / 16 ≠ 14 → ∃ t : UInt8, t.toNat = fh.byte1.toNat / 16 ∧
      (Disconnect.read mode fh bytes).1 = .err (.InvalidPacketType t)) ∧
    (fh.byte1.toNat / 16 = 14 → fh.byte1.toNat % 16 ≠ 0 →
      (Disconnect.read mode fh bytes).1 = .err .MalformedPacket) := by
  have ht : (fh.byte1 >>> 4).toNat = fh.byte1.toNat / 16 := by
    rw [UInt8.toNat_shiftRight]
    show fh.byte1.toNat >>> 4 = _
    rw [Nat.shiftRight_eq_div_pow]
  have hf : (fh.byte1 &&& 0b00001111).toNat = fh.byte1.toNat % 16 := by
    rw [UInt8.toNat_and]
    show fh.byte1.toNat &&& (2 ^ 4 - 1) = _
    rw [Nat.and_two_pow_sub_one_eq_mod]
  have ha : advance fh.fixed_header_len bytes = (.ok (), bytes.drop fh.fixed_header_len) := by
    unfold advance; rw [if_pos hl]
  unfold Disconnect.read
  constructor
  · intro h
    refine ⟨fh.byte1 >>> 4, ht, ?_⟩
    rw [M.bind_ok ha, if_pos]
    · rfl
    · intro h'
      rw [h'] at ht
      exact h ht.symm
  · intro h h2
    rw [M.bind_ok ha, if_neg, if_pos]
    · rfl
    · intro h'
      rw [h'] at hf
      exact h2 hf.symm
    · simp only [ne_eq, Classical.not_not]
      apply UInt8.toNat_inj.1
      rw [ht, h]; rfl

/-- Both cases occur. -/
example : (Disconnect.read .utf8 (FixedHeader.new 0x40 1 2) [0, 0, 0, 0]).1 =
      .err (.InvalidPacketType 4) ∧
    (Disconnect.read .utf8 (FixedHeader.new 0xE1 1 2) [0, 0, 0, 0]).1 = .err .MalformedPacket := by
  decide +kernel

/-! ### C48 -/

/-- C48: of a fixed header only the packet type and the remaining length matter, for PUBLISH and
DISCONNECT also the low four bits: two frames with the same type and body are treated alike,
however their remaining length is encoded. -/
theorem C48_header (mode : StrMode) (max : Option Nat) (b1 b1' : UInt8) (v v' body rest : Bytes)
    (hv : VarintRep v body.length) (hv' : VarintRep v' body.length)
    (ht : b1.toNat / 16 = b1'.toNat / 16)
    (hs : b1.toNat / 16 = 3 ∨ b1.toNat / 16 = 14 → b1 = b1') :
    (Admits max body.length →
      Packet.read mode max (b1 :: (v ++ (body ++ rest))) =
        Packet.read mode max (b1' :: (v' ++ (body ++ rest)))) ∧
    (¬ Admits max body.length →
      (Packet.read mode max (b1 :: (v ++ (body ++ rest)))).1 =
        (Packet.read mode max (b1' :: (v' ++ (body ++ rest)))).1) := by
  constructor
  · intro hm
    rw [read_frame hv (not_overLimit.2 hm), read_frame hv' (not_overLimit.2 hm),
      frameOut_header ht hs]
  · intro hm
    have : OverLimit max body.length :=
      Classical.byContradiction fun h => hm (not_overLimit.1 h)
    obtain ⟨m, rfl, hn⟩ := this
    rw [read_check_err (check_over (parse_rep _ hv) hn),
      read_check_err (check_over (parse_rep _ hv') hn)]
    rfl

/-- A PINGREQ and a PUBACK, with reserved bits set and a padded length. -/
example : Packet.read .utf8 none [0xCF, 0x80, 0x00] = (.ok .PingReq, []) ∧
    Packet.read .utf8 none [0x4F, 0x82, 0x80, 0x00, 0, 7] =
      (.ok (.PubAck { pkid := 7, reason := .Success, properties := none }), []) := by
  decide +kernel

/-- C48: DISCONNECT is the only packet type for which reserved bits are refused, always with the
same error. -/
theorem C48_disconnect_flags (mode : StrMode) (max : Option Nat) (b1 : UInt8) (v body rest : Bytes)
    (hv : VarintRep v body.length) (hm : Admits max body.length) (ht : b1.toNat / 16 = 14)
    (hf : b1.toNat % 16 ≠ 0) :
    Packet.read mode max (b1 :: (v ++ (body ++ rest))) = (.err .MalformedPacket, rest) := by
  rw [read_frame hv (not_overLimit.2 hm), frameOut_typed (ty := .Disconnect) ht (.inr rfl)]
  congr 1
  show ((onOwned _ (Disconnect.read mode _) >>= fun a => pure (Packet.Disconnect a)) []).1 = _
  rw [wrapped_eq, (C37_disconnect_reader mode _ _ (by simp [FixedHeader.new])).2 ht hf]
  rfl

end Props
