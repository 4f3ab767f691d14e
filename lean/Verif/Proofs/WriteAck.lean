import Verif.Proofs.Write
/-
Writers of the four publish acknowledgements.
-/
set_option linter.unusedSimpArgs false

namespace Mqtt

open Spec

/-! ### PubAck -/

theorem PubAck.code_eq (r : PubAckReason) : r.code = Spec.pubAckCode r := by cases r <;> rfl

theorem PubAck.code_zero (r : PubAckReason) : Spec.pubAckCode r = 0 ↔ r = .Success := by
  cases r <;> simp [Spec.pubAckCode]

theorem PubAck.lenSpec (p : PubAck) (hf : ∀ q ∈ props (.PubAck p), FitsNum q) :
    LenSpec p.len (body (.PubAck p)) := by
  unfold PubAck.len body
  have h := lenSpec_opt PubAckProperties.len_eq p.properties hf
  by_cases hs : p.reason = .Success ∧ p.properties = none
  · rw [if_pos hs]
    exact LenSpec.of_eq (by simp [ackTail, hs.1, hs.2, Spec.pubAckCode])
  · rw [if_neg hs]
    have h2 : ackTail (Spec.pubAckCode p.reason) Spec.PubAckProperties.toList p.properties =
        [Spec.pubAckCode p.reason] ++ optSection Spec.PubAckProperties.toList p.properties := by
      cases hp : p.properties with
      | none =>
        have : ¬ Spec.pubAckCode p.reason = 0 := fun h => hs ⟨(PubAck.code_zero _).1 h, hp⟩
        simp [ackTail, this, optSection]
      | some q => simp [ackTail, optSection]
    simp only [h2]
    exact ((LenSpec.refl (u16 p.pkid)).add ((LenSpec.refl [Spec.pubAckCode p.reason]).add h)).congr
      (by simp only [u16_length, List.length_singleton, Nat.add_assoc]) rfl

theorem PubAck.write_wr (p : PubAck) : Wr (Refusal (.PubAck p)) p.write (Encodable (.PubAck p))
    (encode (.PubAck p)).length (encode (.PubAck p)) := by
  have key : Wr (Refusal (.PubAck p)) p.write
      ((∀ q ∈ props (.PubAck p), q.Fits) ∧ (body (.PubAck p)).length ≤ 268435455)
      (encode (.PubAck p)).length (encode (.PubAck p)) := by
    refine wr_frame (fun hf => PubAck.lenSpec p fun q hq => fitsNum_of_fits (hf q hq))
      (refusal_len fun hf => (PubAck.lenSpec p hf).1) fun hl => ?_
    by_cases hs : p.reason = .Success ∧ p.properties = none
    · simp only [if_pos hs]
      refine (Wr.step (f := fun _ => pure 4) (emits_u16 _) (Wr.pure 4)).congr ?_ ?_ ?_
      · simp [props, hs.2, optList]
      · intro _
        unfold PubAck.len
        rw [if_pos hs, varint, if_pos (by omega)]; rfl
      · simp [body, hs.1, hs.2, ackTail, Spec.pubAckCode]
    · simp only [if_neg hs]
      have hg : gLen (optList Spec.PubAckProperties.toList p.properties) ≤ 268435455 := by
        have := gLen_le_opt PubAckProperties.len_eq p.properties
        unfold PubAck.len at hl
        rw [if_neg hs] at hl; omega
      have h2 : ackTail (Spec.pubAckCode p.reason) Spec.PubAckProperties.toList p.properties =
          [Spec.pubAckCode p.reason] ++ optSection Spec.PubAckProperties.toList p.properties := by
        cases hp : p.properties with
        | none =>
          have : ¬ Spec.pubAckCode p.reason = 0 := fun h => hs ⟨(PubAck.code_zero _).1 h, hp⟩
          simp [ackTail, this, optSection]
        | some q => simp [ackTail, optSection]
      refine (Wr.step (emits_u16 _) (Wr.step (emits_u8 _)
        (Wr.bind (f := fun _ => pure (1 + (varint p.len).length + p.len)) (wr_props PubAckProperties.len_eq PubAckProperties.write_eq p.properties hg ?_)
          (Wr.pure (1 + (varint p.len).length + p.len))))).congr ?_ ?_ ?_
      · intro q hq e he; exact refusal_prop hq he
      · simp [props]
      · intro _; rfl
      · intro _; simp only [body, h2, PubAck.code_eq]; simp
  refine key.congr ?_ (fun _ => rfl) (fun _ => rfl)
  simp [Encodable, fields, texts, maxVarint]

/-! ### PubRec -/

theorem PubRec.code_eq (r : PubRecReason) : r.code = Spec.pubRecCode r := by cases r <;> rfl

theorem PubRec.code_zero (r : PubRecReason) : Spec.pubRecCode r = 0 ↔ r = .Success := by
  cases r <;> simp [Spec.pubRecCode]

theorem PubRec.lenSpec (p : PubRec) (hf : ∀ q ∈ props (.PubRec p), FitsNum q) :
    LenSpec p.len (body (.PubRec p)) := by
  unfold PubRec.len body
  have h := lenSpec_opt PubRecProperties.len_eq p.properties hf
  by_cases hs : p.reason = .Success ∧ p.properties = none
  · rw [if_pos hs]
    exact LenSpec.of_eq (by simp [ackTail, hs.1, hs.2, Spec.pubRecCode])
  · rw [if_neg hs]
    have h2 : ackTail (Spec.pubRecCode p.reason) Spec.PubRecProperties.toList p.properties =
        [Spec.pubRecCode p.reason] ++ optSection Spec.PubRecProperties.toList p.properties := by
      cases hp : p.properties with
      | none =>
        have : ¬ Spec.pubRecCode p.reason = 0 := fun h => hs ⟨(PubRec.code_zero _).1 h, hp⟩
        simp [ackTail, this, optSection]
      | some q => simp [ackTail, optSection]
    simp only [h2]
    exact ((LenSpec.refl (u16 p.pkid)).add ((LenSpec.refl [Spec.pubRecCode p.reason]).add h)).congr
      (by simp only [u16_length, List.length_singleton, Nat.add_assoc]) rfl

theorem PubRec.write_wr (p : PubRec) : Wr (Refusal (.PubRec p)) p.write (Encodable (.PubRec p))
    (encode (.PubRec p)).length (encode (.PubRec p)) := by
  have key : Wr (Refusal (.PubRec p)) p.write
      ((∀ q ∈ props (.PubRec p), q.Fits) ∧ (body (.PubRec p)).length ≤ 268435455)
      (encode (.PubRec p)).length (encode (.PubRec p)) := by
    refine wr_frame (fun hf => PubRec.lenSpec p fun q hq => fitsNum_of_fits (hf q hq))
      (refusal_len fun hf => (PubRec.lenSpec p hf).1) fun hl => ?_
    by_cases hs : p.reason = .Success ∧ p.properties = none
    · simp only [if_pos hs]
      refine (Wr.step (f := fun _ => pure 4) (emits_u16 _) (Wr.pure 4)).congr ?_ ?_ ?_
      · simp [props, hs.2, optList]
      · intro _
        unfold PubRec.len
        rw [if_pos hs, varint, if_pos (by omega)]; rfl
      · simp [body, hs.1, hs.2, ackTail, Spec.pubRecCode]
    · simp only [if_neg hs]
      have hg : gLen (optList Spec.PubRecProperties.toList p.properties) ≤ 268435455 := by
        have := gLen_le_opt PubRecProperties.len_eq p.properties
        unfold PubRec.len at hl
        rw [if_neg hs] at hl; omega
      have h2 : ackTail (Spec.pubRecCode p.reason) Spec.PubRecProperties.toList p.properties =
          [Spec.pubRecCode p.reason] ++ optSection Spec.PubRecProperties.toList p.properties := by
        cases hp : p.properties with
        | none =>
          have : ¬ Spec.pubRecCode p.reason = 0 := fun h => hs ⟨(PubRec.code_zero _).1 h, hp⟩
          simp [ackTail, this, optSection]
        | some q => simp [ackTail, optSection]
      refine (Wr.step (emits_u16 _) (Wr.step (emits_u8 _)
        (Wr.bind (f := fun _ => pure (1 + (varint p.len).length + p.len)) (wr_props PubRecProperties.len_eq PubRecProperties.write_eq p.properties hg ?_)
          (Wr.pure (1 + (varint p.len).length + p.len))))).congr ?_ ?_ ?_
      · intro q hq e he; exact refusal_prop hq he
      · simp [props]
      · intro _; rfl
      · intro _; simp only [body, h2, PubRec.code_eq]; simp
  refine key.congr ?_ (fun _ => rfl) (fun _ => rfl)
  simp [Encodable, fields, texts, maxVarint]

/-! ### PubRel -/

theorem PubRel.code_eq (r : PubRelReason) : r.code = Spec.pubRelCode r := by cases r <;> rfl

theorem PubRel.code_zero (r : PubRelReason) : Spec.pubRelCode r = 0 ↔ r = .Success := by
  cases r <;> simp [Spec.pubRelCode]

theorem PubRel.lenSpec (p : PubRel) (hf : ∀ q ∈ props (.PubRel p), FitsNum q) :
    LenSpec p.len (body (.PubRel p)) := by
  unfold PubRel.len body
  have h := lenSpec_opt PubRelProperties.len_eq p.properties hf
  by_cases hs : p.reason = .Success ∧ p.properties = none
  · rw [if_pos hs]
    exact LenSpec.of_eq (by simp [ackTail, hs.1, hs.2, Spec.pubRelCode])
  · rw [if_neg hs]
    have h2 : ackTail (Spec.pubRelCode p.reason) Spec.PubRelProperties.toList p.properties =
        [Spec.pubRelCode p.reason] ++ optSection Spec.PubRelProperties.toList p.properties := by
      cases hp : p.properties with
      | none =>
        have : ¬ Spec.pubRelCode p.reason = 0 := fun h => hs ⟨(PubRel.code_zero _).1 h, hp⟩
        simp [ackTail, this, optSection]
      | some q => simp [ackTail, optSection]
    simp only [h2]
    exact ((LenSpec.refl (u16 p.pkid)).add ((LenSpec.refl [Spec.pubRelCode p.reason]).add h)).congr
      (by simp only [u16_length, List.length_singleton, Nat.add_assoc]) rfl

theorem PubRel.write_wr (p : PubRel) : Wr (Refusal (.PubRel p)) p.write (Encodable (.PubRel p))
    (encode (.PubRel p)).length (encode (.PubRel p)) := by
  have key : Wr (Refusal (.PubRel p)) p.write
      ((∀ q ∈ props (.PubRel p), q.Fits) ∧ (body (.PubRel p)).length ≤ 268435455)
      (encode (.PubRel p)).length (encode (.PubRel p)) := by
    refine wr_frame (fun hf => PubRel.lenSpec p fun q hq => fitsNum_of_fits (hf q hq))
      (refusal_len fun hf => (PubRel.lenSpec p hf).1) fun hl => ?_
    by_cases hs : p.reason = .Success ∧ p.properties = none
    · simp only [if_pos hs]
      refine (Wr.step (f := fun _ => pure 4) (emits_u16 _) (Wr.pure 4)).congr ?_ ?_ ?_
      · simp [props, hs.2, optList]
      · intro _
        unfold PubRel.len
        rw [if_pos hs, varint, if_pos (by omega)]; rfl
      · simp [body, hs.1, hs.2, ackTail, Spec.pubRelCode]
    · simp only [if_neg hs]
      have hg : gLen (optList Spec.PubRelProperties.toList p.properties) ≤ 268435455 := by
        have := gLen_le_opt PubRelProperties.len_eq p.properties
        unfold PubRel.len at hl
        rw [if_neg hs] at hl; omega
      have h2 : ackTail (Spec.pubRelCode p.reason) Spec.PubRelProperties.toList p.properties =
          [Spec.pubRelCode p.reason] ++ optSection Spec.PubRelProperties.toList p.properties := by
        cases hp : p.properties with
        | none =>
          have : ¬ Spec.pubRelCode p.reason = 0 := fun h => hs ⟨(PubRel.code_zero _).1 h, hp⟩
          simp [ackTail, this, optSection]
        | some q => simp [ackTail, optSection]
      refine (Wr.step (emits_u16 _) (Wr.step (emits_u8 _)
        (Wr.bind (f := fun _ => pure (1 + (varint p.len).length + p.len)) (wr_props PubRelProperties.len_eq PubRelProperties.write_eq p.properties hg ?_)
          (Wr.pure (1 + (varint p.len).length + p.len))))).congr ?_ ?_ ?_
      · intro q hq e he; exact refusal_prop hq he
      · simp [props]
      · intro _; rfl
      · intro _; simp only [body, h2, PubRel.code_eq]; simp
  refine key.congr ?_ (fun _ => rfl) (fun _ => rfl)
  simp [Encodable, fields, texts, maxVarint]

/-! ### PubComp -/

theorem PubComp.code_eq (r : PubCompReason) : r.code = Spec.pubCompCode r := by cases r <;> rfl

theorem PubComp.code_zero (r : PubCompReason) : Spec.pubCompCode r = 0 ↔ r = .Success := by
  cases r <;> simp [Spec.pubCompCode]

theorem PubComp.lenSpec (p : PubComp) (hf : ∀ q ∈ props (.PubComp p), FitsNum q) :
    LenSpec p.len (body (.PubComp p)) := by
  unfold PubComp.len body
  have h := lenSpec_opt PubCompProperties.len_eq p.properties hf
  by_cases hs : p.reason = .Success ∧ p.properties = none
  · rw [if_pos hs]
    exact LenSpec.of_eq (by simp [ackTail, hs.1, hs.2, Spec.pubCompCode])
  · rw [if_neg hs]
    have h2 : ackTail (Spec.pubCompCode p.reason) Spec.PubCompProperties.toList p.properties =
        [Spec.pubCompCode p.reason] ++ optSection Spec.PubCompProperties.toList p.properties := by
      cases hp : p.properties with
      | none =>
        have : ¬ Spec.pubCompCode p.reason = 0 := fun h => hs ⟨(PubComp.code_zero _).1 h, hp⟩
        simp [ackTail, this, optSection]
      | some q => simp [ackTail, optSection]
    simp only [h2]
    exact ((LenSpec.refl (u16 p.pkid)).add ((LenSpec.refl [Spec.pubCompCode p.reason]).add h)).congr
      (by simp only [u16_length, List.length_singleton, Nat.add_assoc]) rfl

theorem PubComp.write_wr (p : PubComp) : Wr (Refusal (.PubComp p)) p.write (Encodable (.PubComp p))
    (encode (.PubComp p)).length (encode (.PubComp p)) := by
  have key : Wr (Refusal (.PubComp p)) p.write
      ((∀ q ∈ props (.PubComp p), q.Fits) ∧ (body (.PubComp p)).length ≤ 268435455)
      (encode (.PubComp p)).length (encode (.PubComp p)) := by
    refine wr_frame (fun hf => PubComp.lenSpec p fun q hq => fitsNum_of_fits (hf q hq))
      (refusal_len fun hf => (PubComp.lenSpec p hf).1) fun hl => ?_
    by_cases hs : p.reason = .Success ∧ p.properties = none
    · simp only [if_pos hs]
      refine (Wr.step (f := fun _ => pure 4) (emits_u16 _) (Wr.pure 4)).congr ?_ ?_ ?_
      · simp [props, hs.2, optList]
      · intro _
        unfold PubComp.len
        rw [if_pos hs, varint, if_pos (by omega)]; rfl
      · simp [body, hs.1, hs.2, ackTail, Spec.pubCompCode]
    · simp only [if_neg hs]
      have hg : gLen (optList Spec.PubCompProperties.toList p.properties) ≤ 268435455 := by
        have := gLen_le_opt PubCompProperties.len_eq p.properties
        unfold PubComp.len at hl
        rw [if_neg hs] at hl; omega
      have h2 : ackTail (Spec.pubCompCode p.reason) Spec.PubCompProperties.toList p.properties =
          [Spec.pubCompCode p.reason] ++ optSection Spec.PubCompProperties.toList p.properties := by
        cases hp : p.properties with
        | none =>
          have : ¬ Spec.pubCompCode p.reason = 0 := fun h => hs ⟨(PubComp.code_zero _).1 h, hp⟩
          simp [ackTail, this, optSection]
        | some q => simp [ackTail, optSection]
      refine (Wr.step (emits_u16 _) (Wr.step (emits_u8 _)
        (Wr.bind (f := fun _ => pure (1 + (varint p.len).length + p.len)) (wr_props PubCompProperties.len_eq PubCompProperties.write_eq p.properties hg ?_)
          (Wr.pure (1 + (varint p.len).length + p.len))))).congr ?_ ?_ ?_
      · intro q hq e he; exact refusal_prop hq he
      · simp [props]
      · intro _; rfl
      · intro _; simp only [body, h2, PubComp.code_eq]; simp
  refine key.congr ?_ (fun _ => rfl) (fun _ => rfl)
  simp [Encodable, fields, texts, maxVarint]

end Mqtt
