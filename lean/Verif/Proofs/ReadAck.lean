import Verif.Proofs.Codes
import Verif.Proofs.PropSets
import Verif.Spec.Decode
/-
Typed readers on a complete frame: exactly the grammar. Common part and the acknowledgements.
-/
set_option linter.unusedSimpArgs false

namespace Mqtt

open Spec

variable {mode : StrMode}

theorem gRead_sec {ids : List UInt8} {b r : Bytes} {o : Option (List Property)} :
    gRead mode ids b = (.ok o, r) ↔ ∃ s, b = s ++ r ∧ PropSec mode ids o s := by
  rw [gRead_ok]
  constructor
  · rintro (⟨rfl, v, hv, rfl⟩ | ⟨ps, v, plen, ws, c, rfl, hv, h0, rfl, hr, hc, hok⟩)
    · exact ⟨v, rfl, .absent hv⟩
    · exact ⟨v ++ ws, by simp, .present hv h0 hr hc hok⟩
  · rintro ⟨s, rfl, h⟩
    cases h with
    | absent hv => exact .inl ⟨rfl, _, hv, rfl⟩
    | present hv h0 hr hc hok =>
      exact .inr ⟨_, _, _, _, _, rfl, hv, h0, by simp, hr, hc, hok⟩

theorem props_ok {σ : Type} {ids : List UInt8} {read : M (Option σ)}
    {ofList : List Property → σ}
    (h : read = gRead mode ids >>= fun o => pure (o.map ofList)) {b r : Bytes} {o : Option σ} :
    read b = (.ok o, r) ↔ ∃ ps s, b = s ++ r ∧ PropSec mode ids ps s ∧ o = ps.map ofList := by
  rw [h, M.bind_eq_ok]
  constructor
  · rintro ⟨ps, b1, h1, h2⟩
    rw [gRead_sec] at h1
    obtain ⟨s, rfl, hs⟩ := h1
    simp only [M.pure_apply, Prod.mk.injEq, Out.ok.injEq] at h2
    exact ⟨ps, s, by rw [h2.2], hs, h2.1.symm⟩
  · rintro ⟨ps, s, rfl, hs, rfl⟩
    exact ⟨ps, r, gRead_sec.2 ⟨s, rfl, hs⟩, rfl⟩

theorem props_good {σ : Type} {ids : List UInt8} {read : M (Option σ)}
    {ofList : List Property → σ}
    (h : read = gRead mode ids >>= fun o => pure (o.map ofList)) : Good read := by
  rw [h]; exact Good.bind Good.gRead fun _ => Good.pure _

theorem propSec_pos {ids : List UInt8} {o : Option (List Property)} {s : Bytes}
    (h : PropSec mode ids o s) : 1 ≤ s.length := by
  cases h with
  | absent hv => exact hv.length_pos
  | present hv => have := hv.length_pos; simp; omega

theorem liftOut_iff {α : Type} {o : Out α} {b r : Bytes} {a : α} :
    liftOut o b = (.ok a, r) ↔ o = .ok a ∧ r = b := by
  simp [liftOut, eq_comm]

theorem pure_ok {α : Type} {b r : Bytes} {a a' : α} :
    (pure a : M α) b = (.ok a', r) ↔ a' = a ∧ r = b := by
  simp [eq_comm]

variable {α β : Type}

theorem inv_lift {o : Out α} {f : α → M β} {b r : Bytes} {c : β} :
    (liftOut o >>= f) b = (.ok c, r) ↔ ∃ a, o = .ok a ∧ f a b = (.ok c, r) := by
  rw [M.bind_eq_ok]
  constructor
  · rintro ⟨a, b1, h1, h2⟩
    obtain ⟨h3, rfl⟩ := liftOut_iff.1 h1
    exact ⟨a, h3, h2⟩
  · rintro ⟨a, h1, h2⟩; exact ⟨a, b, liftOut_iff.2 ⟨h1, rfl⟩, h2⟩

theorem inv_u8 {f : UInt8 → M β} {b r : Bytes} {c : β} :
    (read_u8 >>= f) b = (.ok c, r) ↔ ∃ x b', b = [x] ++ b' ∧ f x b' = (.ok c, r) := by
  rw [M.bind_eq_ok]
  constructor
  · rintro ⟨a, b1, h1, h2⟩; exact ⟨a, b1, read_u8_ok.1 h1, h2⟩
  · rintro ⟨a, b1, h1, h2⟩; exact ⟨a, b1, read_u8_ok.2 h1, h2⟩

theorem inv_u16 {f : UInt16 → M β} {b r : Bytes} {c : β} :
    (read_u16 >>= f) b = (.ok c, r) ↔ ∃ x b', b = u16 x ++ b' ∧ f x b' = (.ok c, r) := by
  rw [M.bind_eq_ok]
  constructor
  · rintro ⟨a, b1, h1, h2⟩; exact ⟨a, b1, read_u16_ok.1 h1, h2⟩
  · rintro ⟨a, b1, h1, h2⟩; exact ⟨a, b1, read_u16_ok.2 h1, h2⟩

theorem inv_bytes {f : Bytes → M β} {b r : Bytes} {c : β} :
    (read_mqtt_bytes >>= f) b = (.ok c, r) ↔
      ∃ s b', b = str s ++ b' ∧ s.length ≤ 65535 ∧ f s b' = (.ok c, r) := by
  rw [M.bind_eq_ok]
  constructor
  · rintro ⟨a, b1, h1, h2⟩
    obtain ⟨h1, h3⟩ := read_mqtt_bytes_ok.1 h1
    exact ⟨a, b1, h1, h3, h2⟩
  · rintro ⟨a, b1, h1, h3, h2⟩; exact ⟨a, b1, read_mqtt_bytes_ok.2 ⟨h1, h3⟩, h2⟩

theorem inv_str {f : Bytes → M β} {b r : Bytes} {c : β} :
    (read_mqtt_string mode >>= f) b = (.ok c, r) ↔
      ∃ s b', b = str s ++ b' ∧ TextField mode s ∧ f s b' = (.ok c, r) := by
  rw [M.bind_eq_ok]
  constructor
  · rintro ⟨a, b1, h1, h2⟩
    obtain ⟨h1, h3⟩ := read_mqtt_string_ok.1 h1
    exact ⟨a, b1, h1, h3, h2⟩
  · rintro ⟨a, b1, h1, h3, h2⟩; exact ⟨a, b1, read_mqtt_string_ok.2 ⟨h1, h3⟩, h2⟩

theorem inv_props {σ : Type} {ids : List UInt8} {read : M (Option σ)}
    {ofList : List Property → σ}
    (h : read = gRead mode ids >>= fun o => pure (o.map ofList)) {f : Option σ → M β}
    {b r : Bytes} {c : β} :
    (read >>= f) b = (.ok c, r) ↔
      ∃ ps s b', b = s ++ b' ∧ PropSec mode ids ps s ∧ f (ps.map ofList) b' = (.ok c, r) := by
  rw [M.bind_eq_ok]
  constructor
  · rintro ⟨a, b1, h1, h2⟩
    obtain ⟨ps, s, h3, hs, rfl⟩ := (props_ok h).1 h1
    exact ⟨ps, s, b1, h3, hs, h2⟩
  · rintro ⟨ps, s, b1, h1, hs, h2⟩
    exact ⟨_, b1, (props_ok h).2 ⟨ps, s, h1, hs, rfl⟩, h2⟩

theorem advance_hdr {hdr body : Bytes} {n : Nat} (h : hdr.length = n) :
    advance n (hdr ++ body) = (.ok (), body) := h ▸ advance_append hdr body

/-! ### PubAck -/

theorem PubAck.read_iff {fh : FixedHeader} {hdr body : Bytes} {p : PubAck}
    (hh : hdr.length = fh.fixed_header_len) (hr : fh.remaining_len = body.length) :
    (∃ r, PubAck.read mode fh (hdr ++ body) = (.ok p, r)) ↔
      BodyRep mode fh.byte1.toNat body (.PubAck p) := by
  unfold PubAck.read
  rw [M.bind_ok (advance_hdr hh), hr]
  constructor
  · rintro ⟨r, h⟩
    obtain ⟨pkid, b1, rfl, h⟩ := inv_u16.1 h
    by_cases h2 : (u16 pkid ++ b1).length = 2
    · rw [if_pos h2, pure_ok] at h
      obtain ⟨rfl, rfl⟩ := h
      have : r = [] := by simpa using h2
      subst this
      exact ⟨[], rfl, .inl ⟨rfl, rfl, rfl⟩⟩
    · rw [if_neg h2] at h
      obtain ⟨x, b2, rfl, h⟩ := inv_u8.1 h
      by_cases h4 : (u16 pkid ++ ([x] ++ b2)).length < 4
      · rw [if_pos h4] at h
        obtain ⟨rs, h5, h⟩ := inv_lift.1 h
        obtain ⟨rfl, rfl⟩ := pure_ok.1 h
        obtain rfl := PubAckReason.ofU8_ok.1 h5
        have : r = [] := List.eq_nil_of_length_eq_zero (by simp at h4; omega)
        subst this
        exact ⟨_, rfl, .inr (.inl ⟨rfl, rfl⟩)⟩
      · rw [if_neg h4] at h
        obtain ⟨ps, s, b3, rfl, hs, h⟩ := (inv_props (PubAckProperties.read_eq mode)).1 h
        obtain ⟨rs, h6, h⟩ := inv_lift.1 h
        obtain ⟨rfl, rfl⟩ := pure_ok.1 h
        obtain rfl := PubAckReason.ofU8_ok.1 h6
        exact ⟨_, rfl, .inr (.inr ⟨ps, s, r, by simp, hs, rfl⟩)⟩
  · rintro ⟨w, rfl, ⟨rfl, hc, ho⟩ | ⟨rfl, ho⟩ | ⟨ps, s, trail, rfl, hs, ho⟩⟩
    · refine ⟨[], ?_⟩
      rw [M.bind_ok (parses_u16 _ _), if_pos (by simp)]
      obtain ⟨pkid, rs, o⟩ := p
      cases rs <;> simp [pubAckCode] at hc
      subst ho; rfl
    · refine ⟨[], ?_⟩
      rw [M.bind_ok (parses_u16 _ _), if_neg (by simp), M.bind_ok (read_u8_cons _ _),
        if_pos (by simp), PubAckReason.ofU8_code]
      obtain ⟨pkid, rs, o⟩ := p
      subst ho; rfl
    · refine ⟨trail, ?_⟩
      have := propSec_pos hs
      rw [M.bind_ok (parses_u16 _ _), if_neg (by simp <;> omega), List.append_assoc,
        M.bind_ok (parses_u8 _ _), if_neg (by simp <;> omega), PubAckReason.ofU8_code,
        M.bind_ok ((props_ok (PubAckProperties.read_eq mode)).2 ⟨ps, s, rfl, hs, rfl⟩)]
      obtain ⟨pkid, rs, o⟩ := p
      subst ho; rfl

theorem PubAck.read_good {fh : FixedHeader} {hdr body : Bytes}
    (hh : hdr.length = fh.fixed_header_len) :
    ∃ m : M PubAck, Good m ∧ PubAck.read mode fh (hdr ++ body) = m body := by
  refine ⟨_, ?_, M.bind_ok (advance_hdr hh)⟩
  refine Good.bind Good.read_u16 fun _ => Good.ite (Good.pure _) (Good.bind Good.read_u8 fun _ =>
    Good.ite (Good.bind (Good.PubAckReason _) fun _ => Good.pure _)
      (Good.bind (props_good (PubAckProperties.read_eq mode)) fun _ =>
        Good.bind (Good.PubAckReason _) fun _ => Good.pure _))

/-! ### PubRec -/

theorem PubRec.read_iff {fh : FixedHeader} {hdr body : Bytes} {p : PubRec}
    (hh : hdr.length = fh.fixed_header_len) (hr : fh.remaining_len = body.length) :
    (∃ r, PubRec.read mode fh (hdr ++ body) = (.ok p, r)) ↔
      BodyRep mode fh.byte1.toNat body (.PubRec p) := by
  unfold PubRec.read
  rw [M.bind_ok (advance_hdr hh), hr]
  constructor
  · rintro ⟨r, h⟩
    obtain ⟨pkid, b1, rfl, h⟩ := inv_u16.1 h
    by_cases h2 : (u16 pkid ++ b1).length = 2
    · rw [if_pos h2, pure_ok] at h
      obtain ⟨rfl, rfl⟩ := h
      have : r = [] := by simpa using h2
      subst this
      exact ⟨[], rfl, .inl ⟨rfl, rfl, rfl⟩⟩
    · rw [if_neg h2] at h
      obtain ⟨x, b2, rfl, h⟩ := inv_u8.1 h
      by_cases h4 : (u16 pkid ++ ([x] ++ b2)).length < 4
      · rw [if_pos h4] at h
        obtain ⟨rs, h5, h⟩ := inv_lift.1 h
        obtain ⟨rfl, rfl⟩ := pure_ok.1 h
        obtain rfl := PubRecReason.ofU8_ok.1 h5
        have : r = [] := List.eq_nil_of_length_eq_zero (by simp at h4; omega)
        subst this
        exact ⟨_, rfl, .inr (.inl ⟨rfl, rfl⟩)⟩
      · rw [if_neg h4] at h
        obtain ⟨ps, s, b3, rfl, hs, h⟩ := (inv_props (PubRecProperties.read_eq mode)).1 h
        obtain ⟨rs, h6, h⟩ := inv_lift.1 h
        obtain ⟨rfl, rfl⟩ := pure_ok.1 h
        obtain rfl := PubRecReason.ofU8_ok.1 h6
        exact ⟨_, rfl, .inr (.inr ⟨ps, s, r, by simp, hs, rfl⟩)⟩
  · rintro ⟨w, rfl, ⟨rfl, hc, ho⟩ | ⟨rfl, ho⟩ | ⟨ps, s, trail, rfl, hs, ho⟩⟩
    · refine ⟨[], ?_⟩
      rw [M.bind_ok (parses_u16 _ _), if_pos (by simp)]
      obtain ⟨pkid, rs, o⟩ := p
      cases rs <;> simp [pubRecCode] at hc
      subst ho; rfl
    · refine ⟨[], ?_⟩
      rw [M.bind_ok (parses_u16 _ _), if_neg (by simp), M.bind_ok (read_u8_cons _ _),
        if_pos (by simp), PubRecReason.ofU8_code]
      obtain ⟨pkid, rs, o⟩ := p
      subst ho; rfl
    · refine ⟨trail, ?_⟩
      have := propSec_pos hs
      rw [M.bind_ok (parses_u16 _ _), if_neg (by simp <;> omega), List.append_assoc,
        M.bind_ok (parses_u8 _ _), if_neg (by simp <;> omega), PubRecReason.ofU8_code,
        M.bind_ok ((props_ok (PubRecProperties.read_eq mode)).2 ⟨ps, s, rfl, hs, rfl⟩)]
      obtain ⟨pkid, rs, o⟩ := p
      subst ho; rfl

theorem PubRec.read_good {fh : FixedHeader} {hdr body : Bytes}
    (hh : hdr.length = fh.fixed_header_len) :
    ∃ m : M PubRec, Good m ∧ PubRec.read mode fh (hdr ++ body) = m body := by
  refine ⟨_, ?_, M.bind_ok (advance_hdr hh)⟩
  refine Good.bind Good.read_u16 fun _ => Good.ite (Good.pure _) (Good.bind Good.read_u8 fun _ =>
    Good.ite (Good.bind (Good.PubRecReason _) fun _ => Good.pure _)
      (Good.bind (props_good (PubRecProperties.read_eq mode)) fun _ =>
        Good.bind (Good.PubRecReason _) fun _ => Good.pure _))

/-! ### PubRel -/

theorem PubRel.read_iff {fh : FixedHeader} {hdr body : Bytes} {p : PubRel}
    (hh : hdr.length = fh.fixed_header_len) (hr : fh.remaining_len = body.length) :
    (∃ r, PubRel.read mode fh (hdr ++ body) = (.ok p, r)) ↔
      BodyRep mode fh.byte1.toNat body (.PubRel p) := by
  unfold PubRel.read
  rw [M.bind_ok (advance_hdr hh), hr]
  constructor
  · rintro ⟨r, h⟩
    obtain ⟨pkid, b1, rfl, h⟩ := inv_u16.1 h
    by_cases h2 : (u16 pkid ++ b1).length = 2
    · rw [if_pos h2, pure_ok] at h
      obtain ⟨rfl, rfl⟩ := h
      have : r = [] := by simpa using h2
      subst this
      exact ⟨[], rfl, .inl ⟨rfl, rfl, rfl⟩⟩
    · rw [if_neg h2] at h
      obtain ⟨x, b2, rfl, h⟩ := inv_u8.1 h
      by_cases h4 : (u16 pkid ++ ([x] ++ b2)).length < 4
      · rw [if_pos h4] at h
        obtain ⟨rs, h5, h⟩ := inv_lift.1 h
        obtain ⟨rfl, rfl⟩ := pure_ok.1 h
        obtain rfl := PubRelReason.ofU8_ok.1 h5
        have : r = [] := List.eq_nil_of_length_eq_zero (by simp at h4; omega)
        subst this
        exact ⟨_, rfl, .inr (.inl ⟨rfl, rfl⟩)⟩
      · rw [if_neg h4] at h
        obtain ⟨ps, s, b3, rfl, hs, h⟩ := (inv_props (PubRelProperties.read_eq mode)).1 h
        obtain ⟨rs, h6, h⟩ := inv_lift.1 h
        obtain ⟨rfl, rfl⟩ := pure_ok.1 h
        obtain rfl := PubRelReason.ofU8_ok.1 h6
        exact ⟨_, rfl, .inr (.inr ⟨ps, s, r, by simp, hs, rfl⟩)⟩
  · rintro ⟨w, rfl, ⟨rfl, hc, ho⟩ | ⟨rfl, ho⟩ | ⟨ps, s, trail, rfl, hs, ho⟩⟩
    · refine ⟨[], ?_⟩
      rw [M.bind_ok (parses_u16 _ _), if_pos (by simp)]
      obtain ⟨pkid, rs, o⟩ := p
      cases rs <;> simp [pubRelCode] at hc
      subst ho; rfl
    · refine ⟨[], ?_⟩
      rw [M.bind_ok (parses_u16 _ _), if_neg (by simp), M.bind_ok (read_u8_cons _ _),
        if_pos (by simp), PubRelReason.ofU8_code]
      obtain ⟨pkid, rs, o⟩ := p
      subst ho; rfl
    · refine ⟨trail, ?_⟩
      have := propSec_pos hs
      rw [M.bind_ok (parses_u16 _ _), if_neg (by simp <;> omega), List.append_assoc,
        M.bind_ok (parses_u8 _ _), if_neg (by simp <;> omega), PubRelReason.ofU8_code,
        M.bind_ok ((props_ok (PubRelProperties.read_eq mode)).2 ⟨ps, s, rfl, hs, rfl⟩)]
      obtain ⟨pkid, rs, o⟩ := p
      subst ho; rfl

theorem PubRel.read_good {fh : FixedHeader} {hdr body : Bytes}
    (hh : hdr.length = fh.fixed_header_len) :
    ∃ m : M PubRel, Good m ∧ PubRel.read mode fh (hdr ++ body) = m body := by
  refine ⟨_, ?_, M.bind_ok (advance_hdr hh)⟩
  refine Good.bind Good.read_u16 fun _ => Good.ite (Good.pure _) (Good.bind Good.read_u8 fun _ =>
    Good.ite (Good.bind (Good.PubRelReason _) fun _ => Good.pure _)
      (Good.bind (props_good (PubRelProperties.read_eq mode)) fun _ =>
        Good.bind (Good.PubRelReason _) fun _ => Good.pure _))

/-! ### PubComp -/

theorem PubComp.read_iff {fh : FixedHeader} {hdr body : Bytes} {p : PubComp}
    (hh : hdr.length = fh.fixed_header_len) (hr : fh.remaining_len = body.length) :
    (∃ r, PubComp.read mode fh (hdr ++ body) = (.ok p, r)) ↔
      BodyRep mode fh.byte1.toNat body (.PubComp p) := by
  unfold PubComp.read
  rw [M.bind_ok (advance_hdr hh), hr]
  constructor
  · rintro ⟨r, h⟩
    obtain ⟨pkid, b1, rfl, h⟩ := inv_u16.1 h
    by_cases h2 : (u16 pkid ++ b1).length = 2
    · rw [if_pos h2, pure_ok] at h
      obtain ⟨rfl, rfl⟩ := h
      have : r = [] := by simpa using h2
      subst this
      exact ⟨[], rfl, .inl ⟨rfl, rfl, rfl⟩⟩
    · rw [if_neg h2] at h
      obtain ⟨x, b2, rfl, h⟩ := inv_u8.1 h
      by_cases h4 : (u16 pkid ++ ([x] ++ b2)).length < 4
      · rw [if_pos h4] at h
        obtain ⟨rs, h5, h⟩ := inv_lift.1 h
        obtain ⟨rfl, rfl⟩ := pure_ok.1 h
        obtain rfl := PubCompReason.ofU8_ok.1 h5
        have : r = [] := List.eq_nil_of_length_eq_zero (by simp at h4; omega)
        subst this
        exact ⟨_, rfl, .inr (.inl ⟨rfl, rfl⟩)⟩
      · rw [if_neg h4] at h
        obtain ⟨ps, s, b3, rfl, hs, h⟩ := (inv_props (PubCompProperties.read_eq mode)).1 h
        obtain ⟨rs, h6, h⟩ := inv_lift.1 h
        obtain ⟨rfl, rfl⟩ := pure_ok.1 h
        obtain rfl := PubCompReason.ofU8_ok.1 h6
        exact ⟨_, rfl, .inr (.inr ⟨ps, s, r, by simp, hs, rfl⟩)⟩
  · rintro ⟨w, rfl, ⟨rfl, hc, ho⟩ | ⟨rfl, ho⟩ | ⟨ps, s, trail, rfl, hs, ho⟩⟩
    · refine ⟨[], ?_⟩
      rw [M.bind_ok (parses_u16 _ _), if_pos (by simp)]
      obtain ⟨pkid, rs, o⟩ := p
      cases rs <;> simp [pubCompCode] at hc
      subst ho; rfl
    · refine ⟨[], ?_⟩
      rw [M.bind_ok (parses_u16 _ _), if_neg (by simp), M.bind_ok (read_u8_cons _ _),
        if_pos (by simp), PubCompReason.ofU8_code]
      obtain ⟨pkid, rs, o⟩ := p
      subst ho; rfl
    · refine ⟨trail, ?_⟩
      have := propSec_pos hs
      rw [M.bind_ok (parses_u16 _ _), if_neg (by simp <;> omega), List.append_assoc,
        M.bind_ok (parses_u8 _ _), if_neg (by simp <;> omega), PubCompReason.ofU8_code,
        M.bind_ok ((props_ok (PubCompProperties.read_eq mode)).2 ⟨ps, s, rfl, hs, rfl⟩)]
      obtain ⟨pkid, rs, o⟩ := p
      subst ho; rfl

theorem PubComp.read_good {fh : FixedHeader} {hdr body : Bytes}
    (hh : hdr.length = fh.fixed_header_len) :
    ∃ m : M PubComp, Good m ∧ PubComp.read mode fh (hdr ++ body) = m body := by
  refine ⟨_, ?_, M.bind_ok (advance_hdr hh)⟩
  refine Good.bind Good.read_u16 fun _ => Good.ite (Good.pure _) (Good.bind Good.read_u8 fun _ =>
    Good.ite (Good.bind (Good.PubCompReason _) fun _ => Good.pure _)
      (Good.bind (props_good (PubCompProperties.read_eq mode)) fun _ =>
        Good.bind (Good.PubCompReason _) fun _ => Good.pure _))

end Mqtt
