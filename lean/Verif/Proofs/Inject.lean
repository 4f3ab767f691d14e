import Verif.Proofs.Drain
import Verif.Proofs.Exact
/-
Different packets have different encodings.
-/
namespace Mqtt

open Spec

theorem u16_append_inj {x y : UInt16} {r r' : Bytes} (h : u16 x ++ r = u16 y ++ r') :
    x = y ∧ r = r' := by
  have h1 := read_u16_ok.2 (rfl : u16 x ++ r = u16 x ++ r)
  rw [h, read_u16_ok.2 rfl] at h1
  simp only [Prod.mk.injEq, Out.ok.injEq] at h1
  exact ⟨h1.1.symm, h1.2.symm⟩

theorem str_append_inj {s s' r r' : Bytes} (hs : s.length ≤ 65535) (hs' : s'.length ≤ 65535)
    (h : str s ++ r = str s' ++ r') : s = s' ∧ r = r' := by
  have h1 := parses_bytes hs r
  rw [h, parses_bytes hs' r'] at h1
  simp only [Prod.mk.injEq, Out.ok.injEq] at h1
  exact ⟨h1.1.symm, h1.2.symm⟩

theorem encProps_inj {l l' : List Property} (h : encProps l = encProps l')
    (hf : ∀ p ∈ l, p.Fits) (hf' : ∀ p ∈ l', p.Fits) : l = l' := by
  induction l generalizing l' with
  | nil =>
    cases l' with
    | nil => rfl
    | cons p l' =>
      have := enc_pos (hf' p (by simp))
      rw [encProps_cons] at h
      have := congrArg List.length h
      simp only [encProps, List.flatMap_nil, List.length_append, List.length_nil] at this
      omega
  | cons p l ih =>
    cases l' with
    | nil =>
      have := enc_pos (hf p (by simp))
      rw [encProps_cons] at h
      have := congrArg List.length h
      simp only [encProps, List.flatMap_nil, List.length_append, List.length_nil] at this
      omega
    | cons p' l' =>
      rw [encProps_cons, encProps_cons] at h
      obtain ⟨rfl, -, hr⟩ := propRep_unique (propRep_enc (hf p (by simp)))
        (propRep_enc (hf' p' (by simp))) h
      rw [ih hr (fun q hq => hf q (by simp [hq])) (fun q hq => hf' q (by simp [hq]))]

theorem optSection_eq {α : Type} (toList : α → List Property) (o : Option α) :
    optSection toList o = propSection (optList toList o) := by cases o <;> rfl

theorem propSection_inj {l l' : List Property} {r r' : Bytes}
    (h : propSection l ++ r = propSection l' ++ r')
    (hf : ∀ p ∈ l, p.Fits) (hf' : ∀ p ∈ l', p.Fits)
    (hl : (encProps l).length ≤ maxVarint) (hl' : (encProps l').length ≤ maxVarint) :
    l = l' ∧ r = r' := by
  unfold propSection at h
  rw [List.append_assoc, List.append_assoc] at h
  obtain ⟨-, hlen, h⟩ := varintRep_unique (varint_rep hl) (varint_rep hl') h
  obtain ⟨he, hr⟩ := List.append_inj h hlen
  exact ⟨encProps_inj he hf hf', hr⟩

theorem normProps_eq {α : Type} {toList : α → List Property} {ofList : List Property → α}
    (hinv : ∀ a, ofList (toList a) = a) {o o' : Option α}
    (h : optList toList o = optList toList o') : normProps toList o = normProps toList o' := by
  have key : ∀ o : Option α, normProps toList o =
      if optList toList o = [] then none else some (ofList (optList toList o)) := by
    intro o
    cases o with
    | none => simp [normProps, optList]
    | some a =>
      by_cases h : toList a = [] <;> simp [normProps, optList, h, hinv]
  rw [key, key, h]

theorem optSection_inj {α : Type} {toList : α → List Property} {ofList : List Property → α}
    (hinv : ∀ a, ofList (toList a) = a) {o o' : Option α} {r r' : Bytes}
    (h : optSection toList o ++ r = optSection toList o' ++ r')
    (hf : ∀ p ∈ optList toList o, p.Fits) (hf' : ∀ p ∈ optList toList o', p.Fits)
    (hl : (optSection toList o).length ≤ maxVarint)
    (hl' : (optSection toList o').length ≤ maxVarint) :
    normProps toList o = normProps toList o' ∧ r = r' := by
  rw [optSection_eq] at *
  rw [optSection_eq] at h
  obtain ⟨h1, h2⟩ := propSection_inj h hf hf' (by
    simp only [propSection, List.length_append] at hl; omega) (by
    simp only [propSection, List.length_append] at hl'; omega)
  exact ⟨normProps_eq hinv h1, h2⟩

theorem filters_inj {l l' : List Filter} (h : l.flatMap filterBytes = l'.flatMap filterBytes)
    (hf : ∀ f ∈ l, f.path.length ≤ 65535) (hf' : ∀ f ∈ l', f.path.length ≤ 65535) : l = l' := by
  induction l generalizing l' with
  | nil =>
    cases l' with
    | nil => rfl
    | cons p l' =>
      have := congrArg List.length h
      simp [filterBytes] at this
  | cons f l ih =>
    cases l' with
    | nil =>
      have := congrArg List.length h
      simp [filterBytes] at this
    | cons g l' =>
      simp only [List.flatMap_cons, filterBytes, List.append_assoc] at h
      obtain ⟨hp, h⟩ := str_append_inj (hf f (by simp)) (hf' g (by simp)) h
      simp only [List.cons_append, List.nil_append, List.cons.injEq] at h
      have ho := congrArg UInt8.toNat h.1
      have h1 := filterOptions_lt f
      have h2 := filterOptions_lt g
      rw [UInt8.toNat_ofNat', UInt8.toNat_ofNat', Nat.mod_eq_of_lt (by omega),
        Nat.mod_eq_of_lt (by omega)] at ho
      rw [filterOptions_inj ho hp, ih h.2 (fun q hq => hf q (by simp [hq]))
        (fun q hq => hf' q (by simp [hq]))]

theorem map_code_inj {α : Type} {c : α → UInt8} (hc : ∀ a b, c a = c b → a = b) {l l' : List α}
    (h : l.map c = l'.map c) : l = l' := by
  induction l generalizing l' with
  | nil => cases l' with
    | nil => rfl
    | cons => simp at h
  | cons a l ih => cases l' with
    | nil => simp at h
    | cons b l' =>
      simp only [List.map_cons, List.cons.injEq] at h
      rw [hc _ _ h.1, ih h.2]

theorem subAckCode_inj (a b : SubscribeReasonCode) (h : subAckCode a = subAckCode b) : a = b := by
  have h1 := SubscribeReasonCode.ofU8_ok.2 (rfl : subAckCode a = subAckCode a)
  rw [h, SubscribeReasonCode.ofU8_ok.2 rfl] at h1
  simpa using h1.symm

theorem unsubAckCode_inj (a b : UnsubAckReason) (h : unsubAckCode a = unsubAckCode b) : a = b := by
  cases a <;> cases b <;> first | rfl | exact absurd h (by decide)

theorem publish_bits {p q : Publish} (h : byte1 (.Publish p) = byte1 (.Publish q)) :
    p.dup = q.dup ∧ p.qos = q.qos ∧ p.retain = q.retain := by
  unfold byte1 bit at h
  simp only at h
  generalize p.dup = a at *
  generalize p.qos = b at *
  generalize p.retain = c at *
  generalize q.dup = a' at *
  generalize q.qos = b' at *
  generalize q.retain = c' at *
  cases a <;> cases b <;> cases c <;> cases a' <;> cases b' <;> cases c' <;>
    first | exact ⟨rfl, rfl, rfl⟩ | exact absurd h (by decide)

theorem encode_parts {p q : Packet} (hp : Encodable p) (hq : Encodable q) {r r' : Bytes}
    (h : encode p ++ r = encode q ++ r') : byte1 p = byte1 q ∧ body p = body q ∧ r = r' := by
  simp only [encode, frame, List.cons_append, List.append_assoc, List.cons.injEq] at h
  obtain ⟨-, hn, he⟩ := varintRep_unique (encode_body_rep p hp) (encode_body_rep q hq) h.2
  obtain ⟨h1, h2⟩ := List.append_inj he hn
  exact ⟨h.1, h1, h2⟩

/-- Packets with the same encoding have the same normal form, and an encoding is not a proper
prefix of another. -/
theorem encode_inj {p q : Packet} (hp : Encodable p) (hq : Encodable q) {r r' : Bytes}
    (h : encode p ++ r = encode q ++ r') : norm p = norm q ∧ r = r' := by
  obtain ⟨h1, h2, h3⟩ := encode_parts hp hq h
  refine ⟨?_, h3⟩
  have hty : typeNum p = typeNum q := by rw [← byte1_type, ← byte1_type, h1]
  by_cases hr : Readable p ∧ Readable q
  · have ht : ∀ p, StringsOk .binary p := fun p => ⟨(by intro _ _ h; cases h),
      (by intro _ _ _ _ h; cases h)⟩
    have e1 := read_encode (mode := .binary) (max := none) hp (ht p) hr.1
      (by intro _ h; cases h) r
    rw [h, read_encode (mode := .binary) (max := none) hq (ht q) hr.2
      (by intro _ h; cases h) r'] at e1
    simp only [Prod.mk.injEq, Out.ok.injEq] at e1
    exact e1.1.symm
  have lp := hp.2.2.1
  have lq := hq.2.2.1
  cases p
  case Publish p =>
    cases q <;> first | (exfalso; revert hty; simp [typeNum]; done) | skip
    rename_i q
    obtain ⟨hd, hqos, hret⟩ := publish_bits h1
    simp only [body, List.append_assoc] at h2
    obtain ⟨ht, h2⟩ := str_append_inj (hp.1 _ (by simp [fields, texts]))
      (hq.1 _ (by simp [fields, texts])) h2
    have key : (p.qos = .AtMostOnce ∨ p.pkid = q.pkid) ∧
        optSection Spec.PublishProperties.toList p.properties ++ p.payload =
        optSection Spec.PublishProperties.toList q.properties ++ q.payload := by
      rw [← hqos] at h2
      by_cases h0 : p.qos = .AtMostOnce
      · rw [if_pos h0, if_pos h0] at h2
        exact ⟨.inl h0, h2⟩
      · rw [if_neg h0, if_neg h0] at h2
        obtain ⟨h4, h5⟩ := u16_append_inj h2
        exact ⟨.inr h4, h5⟩
    simp only [body, List.length_append] at lp lq
    obtain ⟨hpr, hpay⟩ := optSection_inj PublishProperties.ofList_toList key.2 hp.2.1 hq.2.1
      (by omega) (by omega)
    simp only [norm]
    rw [hd, hqos, hret, ht, hpr, hpay]
    rcases key.1 with h0 | h0
    · rw [hqos] at h0; simp [h0]
    · rw [h0]
  case Subscribe p =>
    cases q <;> first | (exfalso; revert hty; simp [typeNum]; done) | skip
    rename_i q
    simp only [body, List.append_assoc] at h2
    obtain ⟨ht, h2⟩ := u16_append_inj h2
    simp only [body, List.length_append] at lp lq
    obtain ⟨hpr, hpay⟩ := optSection_inj SubscribeProperties.ofList_toList h2 hp.2.1 hq.2.1
      (by omega) (by omega)
    have := filters_inj hpay (fun f hf => hp.1 _ (by simp [fields, texts]; exact ⟨f, hf, rfl⟩))
      (fun f hf => hq.1 _ (by simp [fields, texts]; exact ⟨f, hf, rfl⟩))
    simp only [norm]
    rw [ht, hpr, this]
  case SubAck p =>
    cases q <;> first | (exfalso; revert hty; simp [typeNum]; done) | skip
    rename_i q
    simp only [body, List.append_assoc] at h2
    obtain ⟨ht, h2⟩ := u16_append_inj h2
    simp only [body, List.length_append] at lp lq
    obtain ⟨hpr, hpay⟩ := optSection_inj SubAckProperties.ofList_toList h2 hp.2.1 hq.2.1
      (by omega) (by omega)
    simp only [norm]
    rw [ht, hpr, map_code_inj subAckCode_inj hpay]
  case UnsubAck p =>
    cases q <;> first | (exfalso; revert hty; simp [typeNum]; done) | skip
    rename_i q
    simp only [body, List.append_assoc] at h2
    obtain ⟨ht, h2⟩ := u16_append_inj h2
    simp only [body, List.length_append] at lp lq
    obtain ⟨hpr, hpay⟩ := optSection_inj UnsubAckProperties.ofList_toList h2 hp.2.1 hq.2.1
      (by omega) (by omega)
    simp only [norm]
    rw [ht, hpr, map_code_inj unsubAckCode_inj hpay]
  all_goals
    cases q <;> first | (exfalso; revert hty; simp [typeNum]; done) | skip
    exact absurd ⟨trivial, trivial⟩ hr

end Mqtt
