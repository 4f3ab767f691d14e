import Verif.Spec.Parts
import Verif.Proofs.Diagnose
import Verif.Proofs.Typed
/-
The readers of the single packet types against `Packet::read`.
-/
namespace Mqtt

open Spec

variable {mode : StrMode} {fh fh' : FixedHeader} {hdr hdr' body : Bytes}

section skip
variable (hh : hdr.length = fh.fixed_header_len) (hh' : hdr'.length = fh'.fixed_header_len)
  (hr : fh.remaining_len = fh'.remaining_len)
include hh hh'

theorem Connect.read_skip : Connect.read mode fh (hdr ++ body) = Connect.read mode fh' (hdr' ++ body) := by
  unfold Connect.read; rw [M.bind_ok (advance_hdr hh), M.bind_ok (advance_hdr hh')]
theorem ConnAck.read_skip : ConnAck.read mode fh (hdr ++ body) = ConnAck.read mode fh' (hdr' ++ body) := by
  unfold ConnAck.read; rw [M.bind_ok (advance_hdr hh), M.bind_ok (advance_hdr hh')]
theorem Subscribe.read_skip : Subscribe.read mode fh (hdr ++ body) = Subscribe.read mode fh' (hdr' ++ body) := by
  unfold Subscribe.read; rw [M.bind_ok (advance_hdr hh), M.bind_ok (advance_hdr hh')]
theorem Unsubscribe.read_skip : Unsubscribe.read mode fh (hdr ++ body) = Unsubscribe.read mode fh' (hdr' ++ body) := by
  unfold Unsubscribe.read; rw [M.bind_ok (advance_hdr hh), M.bind_ok (advance_hdr hh')]
theorem SubAck.read_skip : SubAck.read mode fh (hdr ++ body) = SubAck.read mode fh' (hdr' ++ body) := by
  unfold SubAck.read; rw [M.bind_ok (advance_hdr hh), M.bind_ok (advance_hdr hh')]
theorem UnsubAck.read_skip : UnsubAck.read mode fh (hdr ++ body) = UnsubAck.read mode fh' (hdr' ++ body) := by
  unfold UnsubAck.read; rw [M.bind_ok (advance_hdr hh), M.bind_ok (advance_hdr hh')]
include hr
theorem PubAck.read_skip : PubAck.read mode fh (hdr ++ body) = PubAck.read mode fh' (hdr' ++ body) := by
  unfold PubAck.read; rw [M.bind_ok (advance_hdr hh), M.bind_ok (advance_hdr hh'), hr]
theorem PubRec.read_skip : PubRec.read mode fh (hdr ++ body) = PubRec.read mode fh' (hdr' ++ body) := by
  unfold PubRec.read; rw [M.bind_ok (advance_hdr hh), M.bind_ok (advance_hdr hh'), hr]
theorem PubRel.read_skip : PubRel.read mode fh (hdr ++ body) = PubRel.read mode fh' (hdr' ++ body) := by
  unfold PubRel.read; rw [M.bind_ok (advance_hdr hh), M.bind_ok (advance_hdr hh'), hr]
theorem PubComp.read_skip : PubComp.read mode fh (hdr ++ body) = PubComp.read mode fh' (hdr' ++ body) := by
  unfold PubComp.read; rw [M.bind_ok (advance_hdr hh), M.bind_ok (advance_hdr hh'), hr]
theorem Disconnect.read_skip (hb : fh.byte1 = fh'.byte1) :
    Disconnect.read mode fh (hdr ++ body) = Disconnect.read mode fh' (hdr' ++ body) := by
  unfold Disconnect.read; rw [M.bind_ok (advance_hdr hh), M.bind_ok (advance_hdr hh'), hr, hb]

end skip

theorem sameFlags_bits (a b : UInt8) (h : SameFlags a b) :
    a &&& 0b0110 = b &&& 0b0110 ∧ a &&& 0b1000 = b &&& 0b1000 ∧ a &&& 0b0001 = b &&& 0b0001 := by
  have h1 : a &&& 15 = b &&& 15 := by
    apply UInt8.toNat_inj.1
    rw [UInt8.toNat_and, UInt8.toNat_and]
    show a.toNat &&& (2^4-1) = b.toNat &&& (2^4-1)
    rw [Nat.and_two_pow_sub_one_eq_mod, Nat.and_two_pow_sub_one_eq_mod]; exact h
  have h2 : ∀ m : UInt8, 15 &&& m = m → a &&& m = b &&& m := by
    intro m hm
    rw [← hm, ← UInt8.and_assoc, h1, UInt8.and_assoc]
  exact ⟨h2 _ (by decide), h2 _ (by decide), h2 _ (by decide)⟩

theorem Publish.read_skip (hh : hdr.length = fh.fixed_header_len)
    (hh' : hdr'.length = fh'.fixed_header_len) (hb : SameFlags fh.byte1 fh'.byte1) :
    (Publish.read mode fh (hdr ++ body)).1 = (Publish.read mode fh' (hdr' ++ body)).1 := by
  obtain ⟨h1, h2, h3⟩ := sameFlags_bits _ _ hb
  rw [Publish.read_eq, Publish.read_eq]
  have hp : ∀ q, publishRest mode fh.byte1 q = publishRest mode fh'.byte1 q := by
    intro q; unfold publishRest; rw [h2, h3]
  rw [h1]
  unfold qosOrErr
  cases Mqtt.qos ((fh'.byte1 &&& 0b0110) >>> 1) with
  | none => rfl
  | some q =>
    simp only [pure_bind]
    rw [M.bind_ok (advance_hdr hh), M.bind_ok (advance_hdr hh'), hp]

/-! ### Against `Packet::read` -/

theorem wrapped_eq {α : Type} (c : α → Packet) (b : Bytes) (m : M α) (r : Bytes) :
    ((onOwned b m >>= fun a => pure (c a)) r).1 = wrapped c (m b).1 := by
  rw [onOwned_bind]
  cases (m b).1 <;> rfl

theorem agrees_of {α : Type} {ty : PacketType} {m : FixedHeader → M α} {c : α → Packet}
    {same : UInt8 → UInt8 → Prop}
    (hb : ∀ fh p, Packet.readBody mode fh ty p = onOwned p (m fh) >>= fun a => pure (c a))
    (hs : ∀ {fh fh' : FixedHeader} {hdr hdr' body : Bytes}, hdr.length = fh.fixed_header_len →
      hdr'.length = fh'.fixed_header_len → fh.remaining_len = fh'.remaining_len →
      same fh.byte1 fh'.byte1 → (m fh (hdr ++ body)).1 = (m fh' (hdr' ++ body)).1) :
    Agrees mode ty.toU8.toNat same m c := by
  intro b1 b1' v hdr body ht hv hne hh hsame
  have h1 := read_frame (mode := mode) (b1 := b1) (max := none) hv
    (not_overLimit.2 (fun _ h => by cases h)) []
  rw [List.append_nil] at h1
  rw [h1]
  show frameOut mode b1 v body = _
  rw [frameOut_typed ht (.inl hne), hb, wrapped_eq]
  congr 1
  refine hs (fh := FixedHeader.new b1 v.length body.length) (hdr := b1 :: v) ?_ ?_ ?_ ?_
  · simp [FixedHeader.new]
  · have := List.length_pos_iff.2 hh
    simp [FixedHeader.new]; omega
  · rfl
  · exact hsame

/-! ### `check` -/

theorem check_cases (max : Option Nat) (b : Bytes) :
    (∃ e, HeadErr max b e ∧ check b max = .err e) ∨
    ∃ b1 v body rest, b = b1 :: (v ++ (body ++ rest)) ∧ VarintRep v body.length ∧
      Admits max body.length ∧ check b max = .ok (FixedHeader.new b1 v.length body.length) := by
  rcases stream_cases b with h | ⟨b1, w, rfl, h1, h3, h⟩ | ⟨b1, w, r, rfl, h4, h⟩ |
    ⟨b1, v, n, r, rfl, hv⟩
  · exact .inl ⟨_, .inl ⟨h, rfl⟩, check_err (parse_short h)⟩
  · exact .inl ⟨_, .inr (.inl ⟨b1, w, rfl, List.length_pos_iff.1 h1, .inl ⟨h3, h, rfl⟩⟩),
      check_err (parse_cont h1 h3 h)⟩
  · exact .inl ⟨_, .inr (.inl ⟨b1, _, rfl, fun h' => by
      rw [(List.append_eq_nil_iff.1 h').1] at h4; simp at h4, .inr ⟨w, r, rfl, h4, h, rfl⟩⟩),
      check_err (parse_long r h4 h)⟩
  · by_cases hm : OverLimit max n
    · obtain ⟨m, rfl, hn⟩ := hm
      exact .inl ⟨_, .inr (.inr ⟨b1, v, n, r, rfl, hv, .inl ⟨m, rfl, hn, rfl⟩⟩),
        check_over (parse_rep r hv) hn⟩
    · by_cases hn : r.length < n
      · refine .inl ⟨.InsufficientBytes (n - r.length),
          .inr (.inr ⟨b1, v, n, r, rfl, hv, .inr ⟨not_overLimit.1 hm, hn, rfl⟩⟩), ?_⟩
        rw [check_within (parse_rep r hv) hm, if_pos]
        · simp [FixedHeader.new, FixedHeader.frame_length]; omega
        · simp [FixedHeader.new, FixedHeader.frame_length]; omega
      · have hl : (r.take n).length = n := by simp; omega
        refine .inr ⟨b1, v, r.take n, r.drop n, by rw [List.take_append_drop], by rw [hl]; exact hv,
          by rw [hl]; exact not_overLimit.1 hm, ?_⟩
        rw [hl, check_within (parse_rep r hv) hm, if_neg]
        simp [FixedHeader.new, FixedHeader.frame_length]; omega

theorem check_frame {max : Option Nat} {b1 : UInt8} {v body rest : Bytes}
    (hv : VarintRep v body.length) (hm : Admits max body.length) :
    check (b1 :: (v ++ (body ++ rest))) max = .ok (FixedHeader.new b1 v.length body.length) := by
  rw [check_within (parse_rep _ hv) (not_overLimit.2 hm), if_neg]
  simp [FixedHeader.new, FixedHeader.frame_length]; omega

theorem check_headErr {max : Option Nat} {b : Bytes} {e : Err} (h : HeadErr max b e) :
    check b max = .err e := by
  rcases h with ⟨hb, rfl⟩ | ⟨b1, w, rfl, hne, h⟩ | ⟨b1, v, n, s, rfl, hv, h⟩
  · exact check_err (parse_short hb)
  · rcases h with ⟨h3, hw, rfl⟩ | ⟨w, r, rfl, h4, hw, rfl⟩
    · exact check_err (parse_cont (List.length_pos_iff.2 hne) h3 hw)
    · exact check_err (parse_long r h4 hw)
  · rcases h with ⟨m, rfl, hn, rfl⟩ | ⟨hm, hn, rfl⟩
    · exact check_over (parse_rep s hv) hn
    · rw [check_within (parse_rep s hv) (not_overLimit.2 hm), if_pos]
      · simp [FixedHeader.new, FixedHeader.frame_length]; omega
      · simp [FixedHeader.new, FixedHeader.frame_length]; omega

/-! ### What matters in a fixed header -/

theorem frameOut_header {b1 b1' : UInt8} {v v' body : Bytes}
    (ht : b1.toNat / 16 = b1'.toNat / 16)
    (hs : b1.toNat / 16 = 3 ∨ b1.toNat / 16 = 14 → b1 = b1') :
    frameOut mode b1 v body = frameOut mode b1' v' body := by
  have hpt : (FixedHeader.new b1 v.length body.length).packet_type =
      (FixedHeader.new b1' v'.length body.length).packet_type := by
    have h : b1 >>> 4 = b1' >>> 4 := by
      apply UInt8.toNat_inj.1
      rw [UInt8.toNat_shiftRight, UInt8.toNat_shiftRight]
      show b1.toNat >>> 4 = b1'.toNat >>> 4
      rw [Nat.shiftRight_eq_div_pow, Nat.shiftRight_eq_div_pow]
      exact ht
    unfold FixedHeader.packet_type FixedHeader.new
    simp only [h]
  unfold frameOut
  rw [hpt]
  cases hty : (FixedHeader.new b1' v'.length body.length).packet_type with
  | err e => rfl
  | panic => rfl
  | diverge => rfl
  | ok ty =>
    have h1 : b1.toNat / 16 = ty.toU8.toNat := packet_type_ok.1 (hpt.trans hty)
    simp only [liftOut_ok, pure_bind]
    split
    · rfl
    have hl : ∀ (x : UInt8) (w : Bytes), (x :: w).length =
      (FixedHeader.new x w.length body.length).fixed_header_len := fun _ _ => by
        simp [FixedHeader.new]
    have hbe : ∀ {α : Type} {m : FixedHeader → M α} {c : α → Packet},
        (m (FixedHeader.new b1 v.length body.length) ((b1 :: v) ++ body)).1 =
        (m (FixedHeader.new b1' v'.length body.length) ((b1' :: v') ++ body)).1 →
        ((onOwned (b1 :: (v ++ body)) (m (FixedHeader.new b1 v.length body.length)) >>= fun a => pure (c a)) []).1 =
        ((onOwned (b1' :: (v' ++ body)) (m (FixedHeader.new b1' v'.length body.length)) >>= fun a => pure (c a)) []).1 := by
      intro α m c h
      rw [wrapped_eq, wrapped_eq]
      exact congrArg _ h
    cases ty with
    | Connect => exact hbe (m := Connect.read mode) (congrArg Prod.fst (Connect.read_skip (hl _ _) (hl _ _)))
    | ConnAck => exact hbe (m := ConnAck.read mode) (congrArg Prod.fst (ConnAck.read_skip (hl _ _) (hl _ _)))
    | Publish =>
      exact hbe (m := Publish.read mode) (Publish.read_skip (hl _ _) (hl _ _)
        (by rw [hs (.inl h1)]; rfl))
    | PubAck => exact hbe (m := PubAck.read mode) (congrArg Prod.fst (PubAck.read_skip (hl _ _) (hl _ _) rfl))
    | PubRec => exact hbe (m := PubRec.read mode) (congrArg Prod.fst (PubRec.read_skip (hl _ _) (hl _ _) rfl))
    | PubRel => exact hbe (m := PubRel.read mode) (congrArg Prod.fst (PubRel.read_skip (hl _ _) (hl _ _) rfl))
    | PubComp => exact hbe (m := PubComp.read mode) (congrArg Prod.fst (PubComp.read_skip (hl _ _) (hl _ _) rfl))
    | Subscribe => exact hbe (m := Subscribe.read mode) (congrArg Prod.fst (Subscribe.read_skip (hl _ _) (hl _ _)))
    | SubAck => exact hbe (m := SubAck.read mode) (congrArg Prod.fst (SubAck.read_skip (hl _ _) (hl _ _)))
    | Unsubscribe => exact hbe (m := Unsubscribe.read mode) (congrArg Prod.fst (Unsubscribe.read_skip (hl _ _) (hl _ _)))
    | UnsubAck => exact hbe (m := UnsubAck.read mode) (congrArg Prod.fst (UnsubAck.read_skip (hl _ _) (hl _ _)))
    | PingReq => rfl
    | PingResp => rfl
    | Disconnect =>
      exact hbe (m := Disconnect.read mode) (congrArg Prod.fst
        (Disconnect.read_skip (hl _ _) (hl _ _) rfl (hs (.inr h1))))

end Mqtt
