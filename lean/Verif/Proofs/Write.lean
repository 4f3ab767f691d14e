import Verif.Proofs.PropWrite
/-
Every writer appends exactly the MQTT 5 encoding when the packet is encodable, and otherwise
stops with a justified error.
-/
set_option linter.unusedSimpArgs false

namespace Mqtt

open Spec

/-- `m` succeeds with `a` and appends `w` if `P`; otherwise it fails with an error satisfying
`J`. -/
structure Wr {α : Type} (J : Err → Prop) (m : M α) (P : Prop) (a : α) (w : Bytes) : Prop where
  ok : P → Emits m (.ok a) w
  err : ¬ P → ∃ e w', J e ∧ Emits m (.err e) w'

namespace Wr

variable {α β : Type} {J : Err → Prop}

theorem always {m : M α} {a : α} {w : Bytes} (h : Emits m (.ok a) w) : Wr J m True a w :=
  ⟨fun _ => h, fun h => absurd trivial h⟩

theorem pure (a : α) : Wr J (Pure.pure a : M α) True a [] := always (Emits.pure a)

theorem bind {m : M α} {f : α → M β} {P Q : Prop} {a : α} {b : β} {w1 w2 : Bytes}
    (h1 : Wr J m P a w1) (h2 : Wr J (f a) Q b w2) : Wr J (m >>= f) (P ∧ Q) b (w1 ++ w2) := by
  constructor
  · rintro ⟨hp, hq⟩; exact Emits.bind (h1.ok hp) (h2.ok hq)
  · intro h
    by_cases hp : P
    · obtain ⟨e, w', hj, hw⟩ := h2.err (fun hq => h ⟨hp, hq⟩)
      exact ⟨e, _, hj, Emits.bind (h1.ok hp) hw⟩
    · obtain ⟨e, w', hj, hw⟩ := h1.err hp
      exact ⟨e, _, hj, Emits.bind_err hw⟩

/-- A step that cannot fail, first. -/
theorem step {m : M α} {f : α → M β} {P : Prop} {a : α} {b : β} {w1 w2 : Bytes}
    (h1 : Emits m (.ok a) w1) (h2 : Wr J (f a) P b w2) : Wr J (m >>= f) P b (w1 ++ w2) := by
  constructor
  · intro hp; exact Emits.bind h1 (h2.ok hp)
  · intro h
    obtain ⟨e, w', hj, hw⟩ := h2.err h
    exact ⟨e, _, hj, Emits.bind h1 hw⟩

theorem congr {m : M α} {P Q : Prop} {a a' : α} {w w' : Bytes} (h : Wr J m P a w) (hP : P ↔ Q)
    (ha : Q → a = a') (hw : Q → w = w') : Wr J m Q a' w' := by
  constructor
  · intro hq; have := h.ok (hP.2 hq); rwa [ha hq, hw hq] at this
  · intro hq; exact h.err fun hp => hq (hP.1 hp)

end Wr

/-- A computed length against the bytes it is meant for. -/
def LenSpec (len : Nat) (body : Bytes) : Prop :=
  len ≤ body.length ∧ (len ≤ 268435455 → len = body.length)

theorem LenSpec.refl (b : Bytes) : LenSpec b.length b := ⟨Nat.le_refl _, fun _ => rfl⟩

theorem LenSpec.of_eq {n : Nat} {b : Bytes} (h : n = b.length) : LenSpec n b := h ▸ LenSpec.refl b

theorem LenSpec.add {l1 l2 : Nat} {b1 b2 : Bytes} (h1 : LenSpec l1 b1) (h2 : LenSpec l2 b2) :
    LenSpec (l1 + l2) (b1 ++ b2) := by
  obtain ⟨a1, e1⟩ := h1
  obtain ⟨a2, e2⟩ := h2
  constructor
  · simp; omega
  · intro h
    rw [List.length_append, ← e1 (by omega), ← e2 (by omega)]

theorem LenSpec.congr {l l' : Nat} {b b' : Bytes} (h : LenSpec l b) (hl : l = l') (hb : b = b') :
    LenSpec l' b' := hl ▸ hb ▸ h

theorem propSection_length (l : List Property) :
    (propSection l).length = (varint (encProps l).length).length + (encProps l).length := by
  simp [propSection]

theorem propSection_nil : propSection [] = [0] := by
  rw [propSection, encProps, List.flatMap_nil, List.length_nil, varint, if_pos (by omega)]; rfl

variable {σ : Type}

theorem lenSpec_opt {plen : σ → Nat} {toList : σ → List Property}
    (hl : ∀ p, plen p = gLen (toList p)) (o : Option σ)
    (hf : ∀ q ∈ optList toList o, FitsNum q) :
    LenSpec (optPropsLen plen o) (optSection toList o) := by
  cases o with
  | none => exact LenSpec.of_eq (by simp [optPropsLen, optSection, propSection_nil])
  | some p =>
    simp only [optPropsLen, optSection, optList, hl] at hf ⊢
    rw [gLen_eq hf]
    constructor
    · rw [propSection_length]
      by_cases h : (encProps (toList p)).length ≤ 268435455
      · rw [len_len_eq h]; exact Nat.le_refl _
      · have : len_len (encProps (toList p)).length ≤ 4 := by unfold len_len; repeat' split <;> omega
        have := varint_length_ge (n := (encProps (toList p)).length) (k := 3) (by omega)
        omega
    · intro h
      rw [propSection_length, len_len_eq (by omega)]

theorem gLen_le_opt {plen : σ → Nat} {toList : σ → List Property}
    (hl : ∀ p, plen p = gLen (toList p)) (o : Option σ) :
    gLen (optList toList o) ≤ optPropsLen plen o := by
  cases o with
  | none => simp [optList, gLen]
  | some p => simp only [optPropsLen, optList, hl]; omega

/-- Writing an optional property section whose length is within the limit. -/
theorem wr_props {J : Err → Prop} {write : σ → M Unit} {plen : σ → Nat}
    {toList : σ → List Property} (hl : ∀ p, plen p = gLen (toList p))
    (hw : ∀ p, write p = write_remaining_length (plen p) >>= fun _ => gWrite (toList p))
    (o : Option σ) (hlen : gLen (optList toList o) ≤ 268435455)
    (hJ : ∀ q ∈ optList toList o, ∀ e, PropErr q e → J e) :
    Wr J (writeOptProps write o) (∀ q ∈ optList toList o, q.Fits) () (optSection toList o) := by
  cases o with
  | none =>
    refine (Wr.always (m := writeOptProps write none) (a := ()) (w := [0]) ?_).congr
      (by simp [optList]) (fun _ => rfl) (fun _ => propSection_nil.symm)
    have := emits_unit_bind_pure (write_remaining_length_emits (n := 0) (by omega))
    rw [varint, if_pos (by omega)] at this
    exact this
  | some p =>
    simp only [writeOptProps, optList, optSection, hw, hl] at hlen hJ ⊢
    constructor
    · intro hf
      have hg := gLen_eq (fun q hq => fitsNum_of_fits (hf q hq))
      rw [hg] at hlen ⊢
      exact Emits.bind (write_remaining_length_emits hlen) (gWrite_emits hf)
    · intro hf
      obtain ⟨q, hq, e, w, he, hw⟩ := gWrite_err hf
      exact ⟨e, _, hJ q hq e he, Emits.bind (write_remaining_length_emits hlen) hw⟩

/-- A whole packet: header byte, remaining length, and the rest. -/
theorem wr_frame {J : Err → Prop} {h : UInt8} {len : Nat} {body : Bytes} {P : Prop}
    {k : Nat → M Nat} (hlen : P → LenSpec len body) (hJ : 268435455 < len → J .PayloadTooLong)
    (hk : len ≤ 268435455 → Wr J (k (varint len).length) P (1 + (varint len).length + len) body) :
    Wr J (putU8 h >>= fun _ => write_remaining_length len >>= k)
      (P ∧ body.length ≤ 268435455) (frame h body).length (frame h body) := by
  by_cases hl : len ≤ 268435455
  · have h1 := Wr.step (emits_u8 h) (f := fun _ => write_remaining_length len >>= k)
      (Wr.step (write_remaining_length_emits hl) (hk hl))
    refine h1.congr ?_ ?_ ?_
    · constructor
      · intro hp; exact ⟨hp, (hlen hp).2 hl ▸ hl⟩
      · exact fun h => h.1
    · rintro ⟨hp, -⟩
      rw [(hlen hp).2 hl]; simp [frame]; omega
    · rintro ⟨hp, -⟩
      rw [(hlen hp).2 hl]; simp [frame]
  · constructor
    · rintro ⟨hp, hb⟩
      have := (hlen hp).1
      omega
    · intro _
      exact ⟨_, _, hJ (by omega), Emits.bind (emits_u8 h)
        (Emits.bind_err (write_remaining_length_err (by omega)))⟩

/-! ### Justified errors -/

theorem refusal_prop {p : Packet} {q : Property} {e : Err} (hq : q ∈ props p)
    (h : PropErr q e) : Refusal p e := by
  rcases h with ⟨rfl, hf, hn⟩ | ⟨rfl, hn⟩
  · left
    refine ⟨rfl, ?_⟩
    cases q <;> simp only [Property.Fits, FitsNum, not_true_eq_false, Nat.not_le] at hf hn
    case subscriptionIdentifier n => omega
    case userProperty k v =>
      by_cases hk : 65535 < k.length
      · exact ⟨k, .inr ⟨_, hq, by simp [Property.strings, Property.texts]⟩, hk⟩
      · exact ⟨v, .inr ⟨_, hq, by simp [Property.strings, Property.texts]⟩, by omega⟩
    all_goals exact ⟨_, .inr ⟨_, hq, List.mem_singleton.2 rfl⟩, hf⟩
  · right; left
    cases q <;> simp only [FitsNum, not_true_eq_false, Nat.not_le] at hn
    exact ⟨rfl, .inl ⟨_, hq, hn⟩⟩

theorem refusal_len {p : Packet} {len : Nat}
    (hl : (∀ q ∈ props p, FitsNum q) → len ≤ (body p).length) (h : 268435455 < len) :
    Refusal p .PayloadTooLong := by
  right; left
  refine ⟨rfl, ?_⟩
  by_cases hf : ∀ q ∈ props p, FitsNum q
  · right; have := hl hf; unfold maxVarint; omega
  · left
    simp only [Classical.not_forall] at hf
    obtain ⟨q, hq, hn⟩ := hf
    cases q <;> simp only [FitsNum, not_true_eq_false, Nat.not_le] at hn
    exact ⟨_, hq, hn⟩

theorem refusal_field {p : Packet} {s : Bytes} (hs : s ∈ fields p) (h : ¬ s.length ≤ 65535) :
    Refusal p .BinaryDataTooLong := .inl ⟨rfl, s, .inl hs, by omega⟩

/-- Writing one string field. -/
theorem wr_str {p : Packet} {s : Bytes} (hs : s ∈ fields p) :
    Wr (Refusal p) (write_mqtt_bytes s) (s.length ≤ 65535) () (str s) :=
  ⟨emits_bytes, fun h => ⟨_, _, refusal_field hs h, emits_bytes_err (by omega)⟩⟩

end Mqtt
