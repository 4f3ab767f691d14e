import Verif.Proofs.Main
import Verif.Proofs.Exact
import Verif.Spec.Content
/-
Frames of a known type: errors of the typed reader are errors of `Packet::read`; exact property
sections.
-/
set_option linter.unusedSimpArgs false

namespace Mqtt

open Spec

variable {mode : StrMode} {α β : Type}

instance (s : Bytes) : Decidable (IsUtf8 s) := decidable_of_iff _ (utf8Valid_iff s)

instance (mode : StrMode) (s : Bytes) : Decidable (TextOk mode s) :=
  inferInstanceAs (Decidable (_ → _))

instance (mode : StrMode) (s : Bytes) : Decidable (TextField mode s) :=
  inferInstanceAs (Decidable (_ ∧ _))

instance (mode : StrMode) (p : Property) : Decidable (p.TextsOk mode) :=
  inferInstanceAs (Decidable (∀ s ∈ p.texts, TextOk mode s))

instance (mode : StrMode) (ids : List UInt8) (p : Property) : Decidable (p.Ok mode ids) :=
  inferInstanceAs (Decidable (_ ∧ _))

/-- `m` fails on `b` with `e`. -/
def Fails (m : M α) (b : Bytes) (e : Err) : Prop := ∃ b', m b = (.err e, b')

theorem Fails.step {m : M α} {f : α → M β} {b b1 : Bytes} {a : α} {e : Err}
    (h : m b = (.ok a, b1)) (h' : Fails (f a) b1 e) : Fails (m >>= f) b e := by
  obtain ⟨b', h'⟩ := h'
  exact ⟨b', by rw [M.bind_ok h, h']⟩

theorem Fails.here {m : M α} {f : α → M β} {b : Bytes} {e : Err} (h : Fails m b e) :
    Fails (m >>= f) b e := by
  obtain ⟨b', h'⟩ := h
  exact ⟨b', M.bind_err h'⟩

theorem Fails.throwE {b : Bytes} {e : Err} : Fails (throwE e : M α) b e := ⟨b, rfl⟩

theorem Fails.u8 {f : UInt8 → M β} {x : UInt8} {b : Bytes} {e : Err} (h : Fails (f x) b e) :
    Fails (read_u8 >>= f) (x :: b) e := .step (read_u8_cons x b) h

theorem Fails.u16 {f : UInt16 → M β} {x : UInt16} {b : Bytes} {e : Err} (h : Fails (f x) b e) :
    Fails (read_u16 >>= f) (u16 x ++ b) e := .step (parses_u16 x b) h

theorem Fails.str {f : Bytes → M β} {s : Bytes} {b : Bytes} {e : Err} (hs : TextField mode s)
    (h : Fails (f s) b e) : Fails (read_mqtt_string mode >>= f) (str s ++ b) e :=
  .step (parses_string hs.1 hs.2 b) h

theorem Fails.bytes {f : Bytes → M β} {s : Bytes} {b : Bytes} {e : Err} (hs : s.length ≤ 65535)
    (h : Fails (f s) b e) : Fails (read_mqtt_bytes >>= f) (Spec.str s ++ b) e :=
  .step (parses_bytes hs b) h

theorem Fails.hdr {f : Unit → M β} {hdr b : Bytes} {n : Nat} {e : Err} (hh : hdr.length = n)
    (h : Fails (f ()) b e) : Fails (advance n >>= f) (hdr ++ b) e :=
  .step (advance_hdr hh) h

theorem Fails.props {σ : Type} {ids : List UInt8} {read : M (Option σ)}
    {ofList : List Property → σ}
    (hr : read = gRead mode ids >>= fun o => pure (o.map ofList)) {f : Option σ → M β}
    {b : Bytes} {e : Err} (h : Fails (gRead mode ids) b e) : Fails (read >>= f) b e := by
  rw [hr]; exact .here (.here h)

/-! ### Frames of a known type -/

theorem frameOut_typed {b1 : UInt8} {v body : Bytes} {ty : PacketType}
    (ht : b1.toNat / 16 = ty.toU8.toNat) (hne : body ≠ [] ∨ ty = .Disconnect) :
    frameOut mode b1 v body =
      (Packet.readBody mode (FixedHeader.new b1 v.length body.length) ty
        (b1 :: (v ++ body)) []).1 := by
  unfold frameOut
  have : (FixedHeader.new b1 v.length body.length).packet_type = .ok ty := packet_type_ok.2 ht
  rw [this, liftOut_ok, pure_bind, if_neg]
  rintro ⟨h1, h2⟩
  rcases hne with h | h
  · exact h (List.length_eq_zero_iff.1 h1)
  · exact h2 h

/-- An error of the typed reader is the result of `Packet::read`. -/
theorem frame_err {ty : PacketType} {m : FixedHeader → M α} {c : α → Packet}
    (hb : ∀ fh p, Packet.readBody mode fh ty p = onOwned p (m fh) >>= fun a => pure (c a))
    {b1 : UInt8} {body f : Bytes} {max : Option Nat} (hf : FrameOf b1 body f)
    (hm : Admits max body.length)
    (ht : b1.toNat / 16 = ty.toU8.toNat) (hne : body ≠ [] ∨ ty = .Disconnect) {e : Err}
    (h : ∀ fh hdr, hdr.length = fh.fixed_header_len → fh.remaining_len = body.length →
      fh.byte1 = b1 → Fails (m fh) (hdr ++ body) e) (r : Bytes) :
    Packet.read mode max (f ++ r) = (.err e, r) := by
  obtain ⟨v, rfl, hv⟩ := hf
  have h1 := read_frame (mode := mode) (b1 := b1) hv (not_overLimit.2 hm) r
  have h2 : b1 :: (v ++ body) ++ r = b1 :: (v ++ (body ++ r)) := by simp
  rw [h2, h1, frameOut_typed ht hne, hb, onOwned_bind]
  obtain ⟨b', h3⟩ := h (FixedHeader.new b1 v.length body.length) (b1 :: v)
    (by simp [FixedHeader.new]) rfl rfl
  rw [List.cons_append] at h3
  rw [h3]

/-- Success in terms of the grammar. -/
theorem frame_ok {b1 : UInt8} {body f : Bytes} {max : Option Nat} {p : Packet}
    (hf : FrameOf b1 body f) (hm : Admits max body.length) (ht : b1.toNat / 16 = typeNum p)
    (h : BodyRep mode b1.toNat body p) (r : Bytes) :
    Packet.read mode max (f ++ r) = (.ok p, r) := by
  obtain ⟨v, rfl, hv⟩ := hf
  exact read_ok_iff.2 ⟨b1, v, body, by simp, hv, not_overLimit.2 hm, ht, h⟩

theorem frame_ok_inv {b1 : UInt8} {body f : Bytes} {max : Option Nat} {p : Packet}
    (hf : FrameOf b1 body f) {r r' : Bytes}
    (h : Packet.read mode max (f ++ r) = (.ok p, r')) :
    r' = r ∧ Admits max body.length ∧ b1.toNat / 16 = typeNum p ∧
      BodyRep mode b1.toNat body p := by
  obtain ⟨v, rfl, hv⟩ := hf
  obtain ⟨b1', v', body', he, hv', hm, ht, hb⟩ := read_ok_iff.1 h
  simp only [List.cons_append, List.append_assoc, List.cons.injEq] at he
  obtain ⟨rfl, he⟩ := he
  obtain ⟨rfl, hn, he⟩ := varintRep_unique hv hv' he
  obtain ⟨rfl, rfl⟩ := List.append_inj he hn
  exact ⟨rfl, not_overLimit.1 hm, ht, hb⟩

/-! ### Exact property sections -/

theorem seqRep_append {R : α → Bytes → Prop} {xs ys : List α} {w w' : Bytes}
    (h : SeqRep R xs w) (h' : SeqRep R ys w') : SeqRep R (xs ++ ys) (w ++ w') := by
  induction h with
  | nil => exact h'
  | cons h1 _ ih => rw [List.append_assoc]; exact .cons h1 ih

theorem seqRep_split {R : α → Bytes → Prop} {xs ys : List α} {w : Bytes}
    (h : SeqRep R (xs ++ ys) w) : ∃ w1 w2, w = w1 ++ w2 ∧ SeqRep R xs w1 ∧ SeqRep R ys w2 := by
  induction xs generalizing w with
  | nil => exact ⟨[], w, rfl, .nil, h⟩
  | cons x xs ih =>
    cases h with
    | cons h1 h2 =>
      obtain ⟨w1, w2, rfl, h3, h4⟩ := ih h2
      exact ⟨_, w2, by rw [List.append_assoc], .cons h1 h3, h4⟩

theorem propRep_length {p : Property} {w : Bytes} (h : PropRep p w) :
    p.enc.length ≤ w.length := by
  obtain ⟨hf, h⟩ := h
  cases p <;> first | (simp only [h]; exact Nat.le_refl _) | skip
  obtain ⟨v, hv, rfl⟩ := h
  have := varint_minimal hv
  simp [Property.enc, Property.value]; omega

theorem seqRep_length {ps : List Property} {ws : Bytes} (h : SeqRep PropRep ps ws) :
    (encProps ps).length ≤ ws.length := by
  induction h with
  | nil => simp [encProps]
  | cons h1 _ ih =>
    have := propRep_length h1
    simp only [encProps, List.flatMap_cons, List.length_append] at *
    omega

theorem seqRep_fits {ps : List Property} {ws : Bytes} (h : SeqRep PropRep ps ws) :
    ∀ p ∈ ps, p.Fits := by
  induction h with
  | nil => simp
  | cons h1 _ ih =>
    intro p hp
    rcases List.mem_cons.1 hp with rfl | hp
    · exact h1.1
    · exact ih p hp

theorem seqRep_enc {ps : List Property} (h : ∀ p ∈ ps, p.Fits) : SeqRep PropRep ps (encProps ps) := by
  induction ps with
  | nil => exact .nil
  | cons p ps ih =>
    exact .cons (propRep_enc (h p (by simp))) (ih fun q hq => h q (by simp [hq]))

/-- The walk over a part of a section that is not affected by the miscount. -/
theorem run_of_seq {plen : Nat} {ps : List Property} {ws : Bytes} (h : SeqRep PropRep ps ws) :
    ∀ c, (∀ pre p post, ps = pre ++ p :: post → ∀ w1 w2, ws = w1 ++ w2 → SeqRep PropRep pre w1 →
        SeqRep PropRep (p :: post) w2 → c + w1.length + subIds pre < plen) →
      Run plen c ps ws (c + ws.length + subIds ps) := by
  induction h with
  | nil => intro c _; exact .nil _
  | @cons p w ps ws h1 h2 ih =>
    intro c hc
    refine .cons ?_ h1 ?_
    · have := hc [] p ps rfl [] (w ++ ws) rfl .nil (.cons h1 h2)
      have e0 : subIds [] = 0 := rfl
      simp only [List.length_nil, e0] at this
      omega
    · have e : c + (w ++ ws).length + subIds (p :: ps) =
          c + w.length + p.drift + ws.length + subIds ps := by
        rw [subIds_cons, List.length_append]; omega
      rw [e]
      refine ih _ fun pre q post he w1 w2 hw hs1 hs2 => ?_
      have := hc (p :: pre) q post (by rw [he]; rfl) (w ++ w1) w2 (by rw [hw, List.append_assoc])
        (.cons h1 hs1) hs2
      rw [subIds_cons, List.length_append] at this
      omega

theorem run_of_driftSafe {ps : List Property} {ws : Bytes} (h : SeqRep PropRep ps ws)
    (hd : DriftSafe ps) : Run ws.length 0 ps ws (ws.length + subIds ps) := by
  have := run_of_seq (plen := ws.length) h 0 (by
    intro pre p post he w1 w2 hw h1 h2
    have h3 := hd pre p post he
    have h4 := seqRep_length h2
    rw [hw, List.length_append]; omega)
  simpa using this

theorem subIds_none {ps : List Property} {ids : List UInt8} (hi : (0x0B : UInt8) ∉ ids)
    (h : ∀ p ∈ ps, p.Ok mode ids) : subIds ps = 0 :=
  subIds_zero fun p hp he => hi (he ▸ (h p hp).1)

theorem propSec_of_section {ids : List UInt8} {ps : List Property} {s : Bytes}
    (h : SectionRep ps s) (hok : ∀ p ∈ ps, p.Ok mode ids) (hd : DriftSafe ps) :
    PropSec mode ids (if ps = [] then none else some ps) s := by
  obtain ⟨v, ws, rfl, hv, hs⟩ := h
  cases hs with
  | nil => rw [if_pos rfl, List.append_nil]; exact .absent hv
  | @cons p w ps ws h1 h2 =>
    rw [if_neg (by simp)]
    refine .present hv ?_ (run_of_driftSafe (.cons h1 h2) hd) (by omega) hok
    have := propRep_pos h1
    rw [List.length_append]; omega

theorem driftSafe_zero {ps : List Property} (hf : ∀ p ∈ ps, p.Fits) (h : subIds ps = 0) :
    DriftSafe ps := driftSafe_of_le_one hf (by omega)

theorem section_fits {ps : List Property} {s : Bytes} (h : SectionRep ps s) :
    ∀ p ∈ ps, p.Fits := by
  obtain ⟨v, ws, -, -, hs⟩ := h
  exact seqRep_fits hs

/-- Sections of packets without subscription identifiers. -/
theorem propSec_of_section' {ids : List UInt8} {ps : List Property} {s : Bytes}
    (hi : (0x0B : UInt8) ∉ ids) (h : SectionRep ps s) (hok : ∀ p ∈ ps, p.Ok mode ids) :
    PropSec mode ids (if ps = [] then none else some ps) s :=
  propSec_of_section h hok (driftSafe_zero (section_fits h) (subIds_none hi hok))

theorem propsOf_map {σ : Type} {ofList : List Property → σ} {ps : List Property} :
    (if ps = [] then none else some ps : Option (List Property)).map ofList =
      propsOf ofList ps := by
  unfold propsOf; split <;> rfl

end Mqtt
