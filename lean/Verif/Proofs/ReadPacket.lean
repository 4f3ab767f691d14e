import Verif.Proofs.ReadConnect
/-
`Packet::read`: framing, dispatch, totality and the characterisation of what is accepted.
-/
set_option linter.unusedSimpArgs false

namespace Mqtt

open Spec

variable {mode : StrMode}

/-! ### The header -/

theorem parse_short {b : Bytes} (h : b.length < 2) :
    parse_fixed_header b = .err (.InsufficientBytes (2 - b.length)) := by
  unfold parse_fixed_header
  simp only
  rw [if_pos h]

theorem parse_cont {b1 : UInt8} {b : Bytes} (h1 : 1 ≤ b.length) (h3 : b.length ≤ 3)
    (h : ∀ x ∈ b, 128 ≤ x.toNat) :
    parse_fixed_header (b1 :: b) = .err (.InsufficientBytes 1) := by
  unfold parse_fixed_header
  simp only [List.length_cons]
  rw [if_neg (by omega), length_short h3 h]

theorem parse_long {b1 : UInt8} {w : Bytes} (r : Bytes) (h4 : w.length = 4)
    (h : ∀ x ∈ w, 128 ≤ x.toNat) :
    parse_fixed_header (b1 :: (w ++ r)) = .err .MalformedRemainingLength := by
  unfold parse_fixed_header
  simp only [List.length_cons, List.length_append]
  rw [if_neg (by omega), length_long r h4 h]

theorem parse_rep {b1 : UInt8} {v : Bytes} {n : Nat} (r : Bytes) (h : VarintRep v n) :
    parse_fixed_header (b1 :: (v ++ r)) = .ok (FixedHeader.new b1 v.length n) := by
  have := h.length_pos
  unfold parse_fixed_header
  simp only [List.length_cons, List.length_append]
  rw [if_neg (by omega), length_rep h r]

/-- Every stream falls into exactly one of these cases. -/
theorem stream_cases (b : Bytes) :
    b.length < 2 ∨
    (∃ b1 w, b = b1 :: w ∧ 1 ≤ w.length ∧ w.length ≤ 3 ∧ ∀ x ∈ w, 128 ≤ x.toNat) ∨
    (∃ b1 w r, b = b1 :: (w ++ r) ∧ w.length = 4 ∧ ∀ x ∈ w, 128 ≤ x.toNat) ∨
    (∃ b1 v n r, b = b1 :: (v ++ r) ∧ VarintRep v n) := by
  rcases b with _ | ⟨b1, _ | ⟨b2, b⟩⟩
  · left; simp
  · left; simp
  · right
    rcases varint_trichotomy (b2 :: b) with ⟨w, n, r, h, hw⟩ | ⟨h1, h2⟩ | ⟨w, r, h, h1, h2⟩
    · right; right; exact ⟨b1, w, n, r, by rw [h], hw⟩
    · left; exact ⟨b1, b2 :: b, rfl, by simp, h1, h2⟩
    · right; left; exact ⟨b1, w, r, by rw [h], h1, h2⟩

/-- The header announces more than the limit allows. -/
def OverLimit (max : Option Nat) (n : Nat) : Prop := ∃ m, max = some m ∧ m < n

theorem check_err {b : Bytes} {max : Option Nat} {e : Err} (h : parse_fixed_header b = .err e) :
    check b max = .err e := by
  unfold check; simp only [h]

theorem check_over {b : Bytes} {m : Nat} {fh : FixedHeader}
    (h : parse_fixed_header b = .ok fh) (hm : m < fh.remaining_len) :
    check b (some m) = .err (.PayloadSizeLimitExceeded fh.remaining_len m) := by
  unfold check; simp only [h]
  rw [if_pos hm]

theorem check_within {b : Bytes} {max : Option Nat} {fh : FixedHeader}
    (h : parse_fixed_header b = .ok fh) (hm : ¬ OverLimit max fh.remaining_len) :
    check b max = if b.length < fh.frame_length
      then .err (.InsufficientBytes (fh.frame_length - b.length)) else .ok fh := by
  unfold check; simp only [h]
  cases max with
  | none => rfl
  | some m =>
    have : ¬ fh.remaining_len > m := fun h' => hm ⟨m, rfl, h'⟩
    simp only
    rw [if_neg this]

theorem read_check_err {b : Bytes} {max : Option Nat} {e : Err} (h : check b max = .err e) :
    Packet.read mode max b = (.err e, b) := by
  unfold Packet.read
  rw [getBuf_bind, h]; rfl

/-! ### One complete frame -/

/-- What `Packet::read` does with a frame it has split off. -/
def frameOut (mode : StrMode) (b1 : UInt8) (v body : Bytes) : Out Packet :=
  ((liftOut (FixedHeader.new b1 v.length body.length).packet_type >>= fun ty =>
    if body.length = 0 ∧ ty ≠ .Disconnect then
      match ty with
      | .PingReq => pure Packet.PingReq
      | .PingResp => pure Packet.PingResp
      | _ => throwE .PayloadRequired
    else Packet.readBody mode (FixedHeader.new b1 v.length body.length) ty
      (b1 :: (v ++ body))) []).1

theorem onOwned_apply {α : Type} (b : Bytes) (m : M α) (r : Bytes) :
    onOwned b m r = ((m b).1, r) := rfl

theorem onOwned_bind {α β : Type} (b : Bytes) (m : M α) (f : α → β) (r : Bytes) :
    (onOwned b m >>= fun a => pure (f a)) r =
      ((match (m b).1 with
        | .ok a => .ok (f a)
        | .err e => .err e
        | .panic => .panic
        | .diverge => .diverge), r) := by
  rw [M.bind_apply, onOwned_apply]
  cases (m b).1 <;> rfl

/-- Decoding a split-off frame does not touch what is left of the stream. -/
theorem readBody_local (mode : StrMode) (fh : FixedHeader) (ty : PacketType) (f r r' : Bytes) :
    Packet.readBody mode fh ty f r = ((Packet.readBody mode fh ty f r').1, r) := by
  cases ty <;> simp only [Packet.readBody] <;> first | rfl | (simp only [onOwned_bind])

theorem read_frame {b1 : UInt8} {v body : Bytes} {max : Option Nat}
    (hv : VarintRep v body.length) (hm : ¬ OverLimit max body.length) (r : Bytes) :
    Packet.read mode max (b1 :: (v ++ (body ++ r))) = (frameOut mode b1 v body, r) := by
  have hp := parse_rep (b1 := b1) (body ++ r) hv
  have hfl : (FixedHeader.new b1 v.length body.length).frame_length =
      (b1 :: (v ++ body)).length := by
    simp [FixedHeader.new, FixedHeader.frame_length]; try omega
  have hc : check (b1 :: (v ++ (body ++ r))) max =
      .ok (FixedHeader.new b1 v.length body.length) := by
    rw [check_within hp hm, if_neg]
    rw [hfl]; simp
  have hs : splitTo (FixedHeader.new b1 v.length body.length).frame_length
      (b1 :: (v ++ (body ++ r))) = (.ok (b1 :: (v ++ body)), r) := by
    have he : b1 :: (v ++ (body ++ r)) = (b1 :: (v ++ body)) ++ r := by simp
    rw [hfl, he, splitTo, if_pos (by simp), List.take_left, List.drop_left]
  unfold Packet.read frameOut
  rw [getBuf_bind, hc, liftOut_ok, pure_bind, M.bind_ok hs]
  cases hty : (FixedHeader.new b1 v.length body.length).packet_type with
  | ok ty =>
    simp only [liftOut_ok, pure_bind]
    have : (FixedHeader.new b1 v.length body.length).remaining_len = body.length := rfl
    rw [this]
    by_cases h0 : body.length = 0 ∧ ty ≠ .Disconnect
    · rw [if_pos h0, if_pos h0]
      cases ty <;> rfl
    · rw [if_neg h0, if_neg h0]
      exact readBody_local _ _ _ _ _ _
  | err e => rfl
  | panic => rfl
  | diverge => rfl

/-! ### Dispatch -/

/-- The type number of a packet type. -/
theorem packet_type_ok {fh : FixedHeader} {ty : PacketType} :
    fh.packet_type = .ok ty ↔ fh.byte1.toNat / 16 = ty.toU8.toNat := by
  obtain ⟨h1, -⟩ := bits_disconnect fh.byte1
  have hlt : fh.byte1.toNat / 16 < 16 := by have := u8_lt fh.byte1; omega
  unfold FixedHeader.packet_type
  simp only [h1]
  generalize fh.byte1.toNat / 16 = n at *
  rcases n with _|_|_|_|_|_|_|_|_|_|_|_|_|_|_|_|n
  rotate_right
  · omega
  all_goals cases ty <;> simp [PacketType.toU8]

theorem packet_type_err {fh : FixedHeader}
    (h : fh.byte1.toNat / 16 = 0 ∨ fh.byte1.toNat / 16 = 15) :
    fh.packet_type = .err (.InvalidPacketType (fh.byte1 >>> 4)) := by
  obtain ⟨h1, -⟩ := bits_disconnect fh.byte1
  unfold FixedHeader.packet_type
  simp only [h1]
  rcases h with h | h <;> rw [h] <;> rfl

theorem packet_type_cases (fh : FixedHeader) :
    (∃ ty, fh.packet_type = .ok ty) ∨
    ((fh.byte1.toNat / 16 = 0 ∨ fh.byte1.toNat / 16 = 15) ∧
      fh.packet_type = .err (.InvalidPacketType (fh.byte1 >>> 4))) := by
  have hlt : fh.byte1.toNat / 16 < 16 := by have := u8_lt fh.byte1; omega
  by_cases h : fh.byte1.toNat / 16 = 0 ∨ fh.byte1.toNat / 16 = 15
  · exact .inr ⟨h, packet_type_err h⟩
  · left
    obtain ⟨h1, -⟩ := bits_disconnect fh.byte1
    unfold FixedHeader.packet_type
    simp only [h1]
    generalize fh.byte1.toNat / 16 = n at *
    rcases n with _|_|_|_|_|_|_|_|_|_|_|_|_|_|_|_|n
    rotate_right
    · omega
    all_goals first | exact ⟨_, rfl⟩ | exact absurd (by simp) h

/-- The kind of a packet as a packet type. -/
def typeOf : Packet → PacketType
  | .Connect .. => .Connect
  | .ConnAck _ => .ConnAck
  | .Publish _ => .Publish
  | .PubAck _ => .PubAck
  | .PubRec _ => .PubRec
  | .PubRel _ => .PubRel
  | .PubComp _ => .PubComp
  | .Subscribe _ => .Subscribe
  | .SubAck _ => .SubAck
  | .Unsubscribe _ => .Unsubscribe
  | .UnsubAck _ => .UnsubAck
  | .PingReq => .PingReq
  | .PingResp => .PingResp
  | .Disconnect _ => .Disconnect

theorem typeOf_num (p : Packet) : (typeOf p).toU8.toNat = typeNum p := by cases p <;> rfl

theorem onOwned_bind_ok {α β : Type} {b : Bytes} {m : M α} {f : α → β} {r : Bytes} {c : β} :
    ((onOwned b m >>= fun a => pure (f a)) r).1 = .ok c ↔
      ∃ a, (∃ r', m b = (.ok a, r')) ∧ c = f a := by
  rw [onOwned_bind]
  rcases h : m b with ⟨o, b'⟩
  cases o <;> simp [eq_comm]

theorem readBody_ok {fh : FixedHeader} {ty : PacketType} {hdr body : Bytes} {p : Packet}
    (hh : hdr.length = fh.fixed_header_len) (hr : fh.remaining_len = body.length)
    (ht : fh.packet_type = .ok ty) (r : Bytes) :
    (Packet.readBody mode fh ty (hdr ++ body) r).1 = .ok p ↔
      ty = typeOf p ∧ BodyRep mode fh.byte1.toNat body p := by
  rw [packet_type_ok] at ht
  cases ty
  case Connect =>
    show ((onOwned _ _ >>= fun a : Connect × Option LastWill × Option Login =>
      pure (Packet.Connect a.1 a.2.1 a.2.2)) r).1 = _ ↔ _
    rw [onOwned_bind_ok]
    constructor
    · rintro ⟨⟨c, w, l⟩, h, rfl⟩; exact ⟨rfl, (Connect.read_iff hh).1 h⟩
    · rintro ⟨h1, h2⟩
      cases p <;> simp only [typeOf, reduceCtorEq] at h1
      exact ⟨(_, _, _), (Connect.read_iff hh).2 h2, rfl⟩
  case PingReq =>
    simp only [Packet.readBody, M.pure_apply, Out.ok.injEq]
    constructor
    · rintro rfl; exact ⟨rfl, trivial⟩
    · rintro ⟨h1, h2⟩; cases p <;> simp only [typeOf, reduceCtorEq] at h1; rfl
  case PingResp =>
    simp only [Packet.readBody, M.pure_apply, Out.ok.injEq]
    constructor
    · rintro rfl; exact ⟨rfl, trivial⟩
    · rintro ⟨h1, h2⟩; cases p <;> simp only [typeOf, reduceCtorEq] at h1; rfl
  case ConnAck =>
    simp only [Packet.readBody]
    rw [onOwned_bind_ok]
    constructor
    · rintro ⟨a, h, rfl⟩; exact ⟨rfl, (ConnAck.read_iff hh).1 h⟩
    · rintro ⟨h1, h2⟩
      cases p <;> simp only [typeOf, reduceCtorEq] at h1
      exact ⟨_, (ConnAck.read_iff hh).2 h2, rfl⟩
  case Publish =>
    simp only [Packet.readBody]
    rw [onOwned_bind_ok]
    constructor
    · rintro ⟨a, h, rfl⟩; exact ⟨rfl, (Publish.read_iff hh).1 h⟩
    · rintro ⟨h1, h2⟩
      cases p <;> simp only [typeOf, reduceCtorEq] at h1
      exact ⟨_, (Publish.read_iff hh).2 h2, rfl⟩
  case PubAck =>
    simp only [Packet.readBody]
    rw [onOwned_bind_ok]
    constructor
    · rintro ⟨a, h, rfl⟩; exact ⟨rfl, (PubAck.read_iff hh hr).1 h⟩
    · rintro ⟨h1, h2⟩
      cases p <;> simp only [typeOf, reduceCtorEq] at h1
      exact ⟨_, (PubAck.read_iff hh hr).2 h2, rfl⟩
  case PubRec =>
    simp only [Packet.readBody]
    rw [onOwned_bind_ok]
    constructor
    · rintro ⟨a, h, rfl⟩; exact ⟨rfl, (PubRec.read_iff hh hr).1 h⟩
    · rintro ⟨h1, h2⟩
      cases p <;> simp only [typeOf, reduceCtorEq] at h1
      exact ⟨_, (PubRec.read_iff hh hr).2 h2, rfl⟩
  case PubRel =>
    simp only [Packet.readBody]
    rw [onOwned_bind_ok]
    constructor
    · rintro ⟨a, h, rfl⟩; exact ⟨rfl, (PubRel.read_iff hh hr).1 h⟩
    · rintro ⟨h1, h2⟩
      cases p <;> simp only [typeOf, reduceCtorEq] at h1
      exact ⟨_, (PubRel.read_iff hh hr).2 h2, rfl⟩
  case PubComp =>
    simp only [Packet.readBody]
    rw [onOwned_bind_ok]
    constructor
    · rintro ⟨a, h, rfl⟩; exact ⟨rfl, (PubComp.read_iff hh hr).1 h⟩
    · rintro ⟨h1, h2⟩
      cases p <;> simp only [typeOf, reduceCtorEq] at h1
      exact ⟨_, (PubComp.read_iff hh hr).2 h2, rfl⟩
  case Subscribe =>
    simp only [Packet.readBody]
    rw [onOwned_bind_ok]
    constructor
    · rintro ⟨a, h, rfl⟩; exact ⟨rfl, (Subscribe.read_iff hh).1 h⟩
    · rintro ⟨h1, h2⟩
      cases p <;> simp only [typeOf, reduceCtorEq] at h1
      exact ⟨_, (Subscribe.read_iff hh).2 h2, rfl⟩
  case SubAck =>
    simp only [Packet.readBody]
    rw [onOwned_bind_ok]
    constructor
    · rintro ⟨a, h, rfl⟩; exact ⟨rfl, (SubAck.read_iff hh).1 h⟩
    · rintro ⟨h1, h2⟩
      cases p <;> simp only [typeOf, reduceCtorEq] at h1
      exact ⟨_, (SubAck.read_iff hh).2 h2, rfl⟩
  case Unsubscribe =>
    simp only [Packet.readBody]
    rw [onOwned_bind_ok]
    constructor
    · rintro ⟨a, h, rfl⟩; exact ⟨rfl, (Unsubscribe.read_iff hh).1 h⟩
    · rintro ⟨h1, h2⟩
      cases p <;> simp only [typeOf, reduceCtorEq] at h1
      exact ⟨_, (Unsubscribe.read_iff hh).2 h2, rfl⟩
  case UnsubAck =>
    simp only [Packet.readBody]
    rw [onOwned_bind_ok]
    constructor
    · rintro ⟨a, h, rfl⟩; exact ⟨rfl, (UnsubAck.read_iff hh).1 h⟩
    · rintro ⟨h1, h2⟩
      cases p <;> simp only [typeOf, reduceCtorEq] at h1
      exact ⟨_, (UnsubAck.read_iff hh).2 h2, rfl⟩
  case Disconnect =>
    simp only [Packet.readBody]
    rw [onOwned_bind_ok]
    constructor
    · rintro ⟨a, h, rfl⟩; exact ⟨rfl, (Disconnect.read_iff hh hr ht).1 h⟩
    · rintro ⟨h1, h2⟩
      cases p <;> simp only [typeOf, reduceCtorEq] at h1
      exact ⟨_, (Disconnect.read_iff hh hr ht).2 h2, rfl⟩

/-- No packet but a ping or a DISCONNECT has an empty body. -/
theorem bodyRep_nil {b1 : Nat} {p : Packet} (h : BodyRep mode b1 [] p) :
    p = .PingReq ∨ p = .PingResp ∨ typeOf p = .Disconnect := by
  cases p
  case PingReq => simp
  case PingResp => simp
  case Disconnect => simp [typeOf]
  case Connect => obtain ⟨_, _, _, _, _, _, h, _⟩ := h; simp [str, u16] at h
  case ConnAck => obtain ⟨_, _, _, _, _, h, _⟩ := h; simp at h
  case Publish => obtain ⟨_, _, _, _, _, _, _, h, _⟩ := h; simp [str, u16] at h
  case PubAck => obtain ⟨_, h, _⟩ := h; simp [u16] at h
  case PubRec => obtain ⟨_, h, _⟩ := h; simp [u16] at h
  case PubRel => obtain ⟨_, h, _⟩ := h; simp [u16] at h
  case PubComp => obtain ⟨_, h, _⟩ := h; simp [u16] at h
  case Subscribe => obtain ⟨_, _, _, _, h, _⟩ := h; simp [u16] at h
  case SubAck => obtain ⟨_, _, _, h, _⟩ := h; simp [u16] at h
  case Unsubscribe => obtain ⟨_, _, _, h, _⟩ := h; simp [u16] at h
  case UnsubAck => obtain ⟨_, _, _, h, _⟩ := h; simp [u16] at h

theorem frameOut_ok {b1 : UInt8} {v body : Bytes} {p : Packet} :
    frameOut mode b1 v body = .ok p ↔
      b1.toNat / 16 = typeNum p ∧ BodyRep mode b1.toNat body p := by
  have hb : (FixedHeader.new b1 v.length body.length).byte1 = b1 := rfl
  unfold frameOut
  rcases packet_type_cases (FixedHeader.new b1 v.length body.length) with ⟨ty, ht⟩ | ⟨h0, h1⟩
  · have ht' := packet_type_ok.1 ht
    rw [hb] at ht'
    rw [ht, liftOut_ok, pure_bind]
    have key : ∀ q, ty = typeOf q ↔ b1.toNat / 16 = typeNum q := by
      intro q
      rw [ht', ← typeOf_num]
      constructor
      · rintro rfl; rfl
      · intro h
        generalize typeOf q = ty' at h
        cases ty <;> cases ty' <;> simp_all [PacketType.toU8]
    by_cases h0 : body.length = 0 ∧ ty ≠ .Disconnect
    · rw [if_pos h0]
      obtain ⟨hl, hd⟩ := h0
      obtain rfl := List.eq_nil_of_length_eq_zero hl
      constructor
      · intro h
        cases ty <;> simp at h
        · subst h; exact ⟨(key _).1 rfl, trivial⟩
        · subst h; exact ⟨(key _).1 rfl, trivial⟩
      · rintro ⟨h1, h2⟩
        rcases bodyRep_nil h2 with rfl | rfl | h
        · obtain rfl := (key _).2 h1; rfl
        · obtain rfl := (key _).2 h1; rfl
        · exact absurd ((key _).2 h1 |>.trans h) hd
    · rw [if_neg h0]
      have := readBody_ok (mode := mode) (fh := FixedHeader.new b1 v.length body.length)
        (hdr := b1 :: v) (body := body) (p := p) (by simp [FixedHeader.new]) rfl ht []
      simp only [List.cons_append] at this
      rw [this, hb, key]
  · rw [h1]
    rw [hb] at h0
    constructor
    · intro h; simp at h
    · rintro ⟨h2, -⟩
      exfalso
      cases p <;> simp only [typeNum] at h2 <;> omega

/-! ### Totality of frame decoding -/

theorem onOwned_total {α β : Type} {b : Bytes} {m : M α} {f : α → β} {r : Bytes}
    (h : (m b).1 ≠ .panic ∧ (m b).1 ≠ .diverge) :
    ((onOwned b m >>= fun a => pure (f a)) r).1 ≠ .panic ∧
    ((onOwned b m >>= fun a => pure (f a)) r).1 ≠ .diverge := by
  rw [onOwned_bind]
  obtain ⟨h1, h2⟩ := h
  cases h3 : (m b).1 <;> simp_all

theorem total_of_good {α : Type} {m : M α} {b body : Bytes}
    (h : ∃ m', Good m' ∧ m b = m' body) : (m b).1 ≠ .panic ∧ (m b).1 ≠ .diverge := by
  obtain ⟨m', hg, he⟩ := h
  rw [he]; exact ⟨(hg body).1, (hg body).2.1⟩

theorem readBody_total {fh : FixedHeader} {ty : PacketType} {hdr body : Bytes}
    (hh : hdr.length = fh.fixed_header_len) (hr : fh.remaining_len = body.length) (r : Bytes) :
    (Packet.readBody mode fh ty (hdr ++ body) r).1 ≠ .panic ∧
    (Packet.readBody mode fh ty (hdr ++ body) r).1 ≠ .diverge := by
  cases ty
  case Connect =>
    exact onOwned_total (f := fun a => Packet.Connect a.1 a.2.1 a.2.2)
      (total_of_good (Connect.read_good hh))
  case PingReq => simp [Packet.readBody]
  case PingResp => simp [Packet.readBody]
  case Publish =>
    refine onOwned_total ?_
    rcases Publish.read_good hh (mode := mode) (body := body) with h | h
    · exact total_of_good h
    · rw [h]; simp
  all_goals
    refine onOwned_total (total_of_good (body := body) ?_)
    first
      | exact ConnAck.read_good hh
      | exact PubAck.read_good hh
      | exact PubRec.read_good hh
      | exact PubRel.read_good hh
      | exact PubComp.read_good hh
      | exact Subscribe.read_good hh
      | exact SubAck.read_good hh
      | exact Unsubscribe.read_good hh
      | exact UnsubAck.read_good hh
      | exact Disconnect.read_good hh

theorem frameOut_total (b1 : UInt8) (v body : Bytes) :
    frameOut mode b1 v body ≠ .panic ∧ frameOut mode b1 v body ≠ .diverge := by
  unfold frameOut
  rcases packet_type_cases (FixedHeader.new b1 v.length body.length) with ⟨ty, ht⟩ | ⟨h0, h1⟩
  · rw [ht, liftOut_ok, pure_bind]
    by_cases h0 : body.length = 0 ∧ ty ≠ .Disconnect
    · rw [if_pos h0]; cases ty <;> simp
    · rw [if_neg h0]
      have := readBody_total (mode := mode) (fh := FixedHeader.new b1 v.length body.length)
        (ty := ty) (hdr := b1 :: v) (body := body) (by simp [FixedHeader.new]) rfl []
      simpa only [List.cons_append] using this
  · rw [h1]; simp

/-! ### The complete case distinction for `Packet::read` -/

/-- What `Packet::read` does on any stream. -/
inductive ReadCase (mode : StrMode) (max : Option Nat) (b : Bytes) : Prop
  /-- Fewer than two bytes. -/
  | tooShort (hb : b.length < 2)
      (hr : Packet.read mode max b = (.err (.InsufficientBytes (2 - b.length)), b))
  /-- The remaining length is not complete. -/
  | openHeader (b1 : UInt8) (w : Bytes) (hb : b = b1 :: w) (h1 : 1 ≤ w.length)
      (h3 : w.length ≤ 3) (hw : ∀ x ∈ w, 128 ≤ x.toNat)
      (hr : Packet.read mode max b = (.err (.InsufficientBytes 1), b))
  /-- The remaining length has no last byte among its first four. -/
  | badHeader (b1 : UInt8) (w r : Bytes) (hb : b = b1 :: (w ++ r)) (h4 : w.length = 4)
      (hw : ∀ x ∈ w, 128 ≤ x.toNat)
      (hr : Packet.read mode max b = (.err .MalformedRemainingLength, b))
  /-- More is announced than allowed. -/
  | overLimit (b1 : UInt8) (v r : Bytes) (n m : Nat) (hb : b = b1 :: (v ++ r))
      (hv : VarintRep v n) (hm : max = some m) (hn : m < n)
      (hr : Packet.read mode max b = (.err (.PayloadSizeLimitExceeded n m), b))
  /-- The body is not complete. -/
  | openBody (b1 : UInt8) (v r : Bytes) (n : Nat) (hb : b = b1 :: (v ++ r))
      (hv : VarintRep v n) (hm : ¬ OverLimit max n) (hn : r.length < n)
      (hr : Packet.read mode max b = (.err (.InsufficientBytes (n - r.length)), b))
  /-- A complete frame is there. -/
  | frame (b1 : UInt8) (v body r : Bytes) (hb : b = b1 :: (v ++ (body ++ r)))
      (hv : VarintRep v body.length) (hm : ¬ OverLimit max body.length)
      (hr : Packet.read mode max b = (frameOut mode b1 v body, r))

theorem read_cases (mode : StrMode) (max : Option Nat) (b : Bytes) : ReadCase mode max b := by
  rcases stream_cases b with h | ⟨b1, w, rfl, h1, h3, h⟩ | ⟨b1, w, r, rfl, h4, h⟩ |
    ⟨b1, v, n, r, rfl, hv⟩
  · exact .tooShort h (read_check_err (check_err (parse_short h)))
  · exact .openHeader b1 w rfl h1 h3 h (read_check_err (check_err (parse_cont h1 h3 h)))
  · exact .badHeader b1 w r rfl h4 h (read_check_err (check_err (parse_long r h4 h)))
  · by_cases hm : OverLimit max n
    · obtain ⟨m, rfl, hn⟩ := hm
      exact .overLimit b1 v r n m rfl hv rfl hn
        (read_check_err (check_over (parse_rep r hv) hn))
    · by_cases hn : r.length < n
      · refine .openBody b1 v r n rfl hv hm hn (read_check_err ?_)
        rw [check_within (parse_rep r hv) hm, if_pos]
        · simp [FixedHeader.new, FixedHeader.frame_length]; omega
        · simp [FixedHeader.new, FixedHeader.frame_length]; omega
      · have hl : (r.take n).length = n := by simp; omega
        have he : r = r.take n ++ r.drop n := (List.take_append_drop n r).symm
        refine .frame b1 v (r.take n) (r.drop n) (by rw [← he]) (by rw [hl]; exact hv)
          (by rw [hl]; exact hm) ?_
        conv => lhs; rw [he]
        exact read_frame (by rw [hl]; exact hv) (by rw [hl]; exact hm) _

/-- `Packet::read` succeeds exactly on the accepted frames. -/
theorem read_ok_iff {max : Option Nat} {b r : Bytes} {p : Packet} :
    Packet.read mode max b = (.ok p, r) ↔
      ∃ b1 v body, b = b1 :: (v ++ (body ++ r)) ∧ VarintRep v body.length ∧
        ¬ OverLimit max body.length ∧ b1.toNat / 16 = typeNum p ∧
        BodyRep mode b1.toNat body p := by
  constructor
  · intro h
    cases read_cases mode max b with
    | tooShort _ hr => rw [hr] at h; simp at h
    | openHeader _ _ _ _ _ _ hr => rw [hr] at h; simp at h
    | badHeader _ _ _ _ _ _ hr => rw [hr] at h; simp at h
    | overLimit _ _ _ _ _ _ _ _ _ hr => rw [hr] at h; simp at h
    | openBody _ _ _ _ _ _ _ _ hr => rw [hr] at h; simp at h
    | frame b1 v body r' hb hv hm hr =>
      rw [hr] at h
      simp only [Prod.mk.injEq] at h
      obtain ⟨h1, rfl⟩ := h
      obtain ⟨h2, h3⟩ := frameOut_ok.1 h1
      exact ⟨b1, v, body, hb, hv, hm, h2, h3⟩
  · rintro ⟨b1, v, body, rfl, hv, hm, h2, h3⟩
    rw [read_frame hv hm, frameOut_ok.2 ⟨h2, h3⟩]

/-- Every accepted frame, with anything behind it, is read as its packet. -/
theorem read_frameRep {max : Option Nat} {f r : Bytes} {p : Packet} (h : FrameRep mode f p)
    (hm : ∀ m, max = some m → f.length ≤ m) :
    Packet.read mode max (f ++ r) = (.ok p, r) := by
  obtain ⟨b1, v, body, rfl, hv, ht, hb⟩ := h
  refine read_ok_iff.2 ⟨b1, v, body, by simp, hv, ?_, ht, hb⟩
  rintro ⟨m, rfl, hlt⟩
  have := hm m rfl
  simp at this
  omega

end Mqtt
