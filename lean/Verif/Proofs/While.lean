import Verif.Proofs.CostBound
import Verif.Spec.While
/-
The loops with fuel are `while` loops.
-/
set_option linter.unusedSimpArgs false

namespace Mqtt

open Spec

/-- A loop with fuel. -/
def loopF {σ : Type} (cond : σ → Bytes → Prop) [∀ s b, Decidable (cond s b)] (body : σ → M σ) :
    Nat → σ → M σ
  | 0, _ => fun b => (.diverge, b)
  | fuel + 1, s => fun b => if cond s b then (body s >>= loopF cond body fuel) b else (.ok s, b)

theorem _root_.Spec.While.unique {σ : Type} {cond : σ → Bytes → Prop} {body : σ → M σ} {s : σ} {b : Bytes}
    {r r' : Out σ × Bytes} (h : While cond body s b r) (h' : While cond body s b r') : r = r' := by
  induction h with
  | done hc =>
    cases h' with
    | done _ => rfl
    | next h _ _ => exact absurd h hc
    | error h _ => exact absurd h hc
    | panic h _ => exact absurd h hc
  | next hc hb _ ih =>
    cases h' with
    | done h => exact absurd hc h
    | next _ h hw =>
      rw [hb] at h
      simp only [Prod.mk.injEq, Out.ok.injEq] at h
      obtain ⟨rfl, rfl⟩ := h
      exact ih hw
    | error _ h => rw [hb] at h; simp at h
    | panic _ h => rw [hb] at h; simp at h
  | error hc hb =>
    cases h' with
    | done h => exact absurd hc h
    | next _ h hw => rw [hb] at h; simp at h
    | error _ h => rw [hb] at h; simp at h; rw [h.1, h.2]
    | panic _ h => rw [hb] at h; simp at h
  | panic hc hb =>
    cases h' with
    | done h => exact absurd hc h
    | next _ h hw => rw [hb] at h; simp at h
    | error _ h => rw [hb] at h; simp at h
    | panic _ h => rw [hb] at h; simp at h; rw [h]

/-- Never ends with `diverge`. -/
def NoDiv {α : Type} (m : M α) : Prop := ∀ b, (m b).1 ≠ .diverge

section
variable {σ : Type} {cond : σ → Bytes → Prop} [∀ s b, Decidable (cond s b)] {body : σ → M σ}

theorem loopF_run (ht : ∀ s, Takes (body s)) (hd : ∀ s, NoDiv (body s)) : ∀ fuel s (b : Bytes),
    b.length < fuel → While cond body s b (loopF cond body fuel s b) := by
  intro fuel
  induction fuel with
  | zero => intro s b h; exact absurd h (Nat.not_lt_zero _)
  | succ fuel ih =>
    intro s b hl
    unfold loopF
    by_cases hc : cond s b
    · rw [if_pos hc, M.bind_apply]
      rcases hb : body s b with ⟨o, b'⟩
      have h1 := ht s b
      have h2 := hd s b
      rw [hb] at h1 h2
      cases o with
      | ok s' => exact .next hc hb (ih s' b' (Nat.lt_of_lt_of_le (h1.2 _ rfl) (Nat.le_of_lt_succ hl)))
      | err e => exact .error hc hb
      | panic => exact .panic hc hb
      | diverge => exact absurd rfl h2
    · rw [if_neg hc]; exact .done hc

theorem loopF_iff (ht : ∀ s, Takes (body s)) (hd : ∀ s, NoDiv (body s)) {s : σ} {b : Bytes}
    {r : Out σ × Bytes} : loopF cond body (b.length + 1) s b = r ↔ While cond body s b r :=
  ⟨fun h => h ▸ loopF_run ht hd _ _ _ (Nat.lt_succ_self _),
   fun h => (loopF_run ht hd _ _ _ (Nat.lt_succ_self _)).unique h⟩

end

section
variable {α β : Type}

theorem NoDiv.pure (a : α) : NoDiv (Pure.pure a : M α) := fun _ => by simp
theorem NoDiv.throwE (e : Err) : NoDiv (Mqtt.throwE e : M α) := fun _ => by simp
theorem Good.noDiv {m : M α} (h : Good m) : NoDiv m := fun b => (h b).2.1

theorem NoDiv.liftOut {o : Out α} (h : o ≠ .diverge) : NoDiv (Mqtt.liftOut o : M α) := fun _ => h

theorem NoDiv.bind {m : M α} {f : α → M β} (hm : NoDiv m) (hf : ∀ a, NoDiv (f a)) :
    NoDiv (m >>= f) := by
  intro b
  rw [M.bind_apply]
  have h := hm b
  rcases hb : m b with ⟨o, b'⟩
  rw [hb] at h
  cases o with
  | ok a => exact hf a b'
  | err _ => simp
  | panic => simp
  | diverge => exact absurd rfl h

theorem NoDiv.advance (n : Nat) : NoDiv (Mqtt.advance n) := by
  intro b; unfold Mqtt.advance; split <;> simp

theorem property_ne_diverge (n : UInt8) : property n ≠ .diverge := by
  unfold property; split <;> simp

theorem loopF_list (one : M α) (L : Nat → List α → M (List α))
    (h0 : ∀ acc, L 0 acc = fun b => (.diverge, b))
    (h1 : ∀ fuel acc, L (fuel + 1) acc = (do
      let bytes ← getBuf
      if bytes.isEmpty then Pure.pure acc
      else do
        let x ← one
        L fuel (acc ++ [x]))) (fuel : Nat) :
    ∀ acc, L fuel acc = loopF (fun _ b => b ≠ []) (appendOne one) fuel acc := by
  induction fuel with
  | zero => intro acc; rw [h0]; rfl
  | succ fuel ih =>
    intro acc
    rw [h1]
    funext b
    rw [M.bind_apply, show getBuf b = (.ok b, b) from rfl]
    dsimp only
    unfold loopF
    cases b with
    | nil => rfl
    | cons x b =>
      rw [if_neg (by simp), if_pos (by simp), M.bind_apply, M.bind_apply]
      unfold appendOne
      rw [M.bind_apply]
      rcases one (x :: b) with ⟨o, b'⟩
      cases o with
      | ok y => dsimp only [M.pure_apply]; rw [ih]; rfl
      | _ => rfl

theorem entries_iff {one : M α} (ht : Takes one) (hd : NoDiv one) {b : Bytes}
    {r : Out (List α) × Bytes} :
    loopF (fun _ b => b ≠ []) (appendOne one) (b.length + 1) [] b = r
      ↔ Entries one b r :=
  loopF_iff (fun _ => ht.bind fun _ => Shrinks.pure _) fun _ => hd.bind fun _ => NoDiv.pure _

end

theorem propLoop_loopF {σ : Type} (step : UInt8 → PropertyType → σ → Nat → M (σ × Nat)) (plen : Nat) :
    ∀ fuel c s b, propLoop step plen fuel c s b =
      (dropCursor (loopF (fun x _ => x.2 < plen) (propBody step) fuel (s, c) b).1,
        (loopF (fun x _ => x.2 < plen) (propBody step) fuel (s, c) b).2) := by
  intro fuel
  induction fuel with
  | zero => intro c s b; rfl
  | succ fuel ih =>
    intro c s b
    unfold propLoop loopF
    by_cases hc : c < plen
    · rw [if_pos hc, if_pos hc, M.bind_apply, M.bind_apply]
      unfold propBody
      rw [M.bind_apply]
      rcases read_u8 b with ⟨o, b'⟩
      cases o with
      | ok p =>
        dsimp only
        rw [M.bind_apply, M.bind_apply]
        cases property p with
        | ok t =>
          dsimp only [liftOut]
          rw [M.bind_apply]
          rcases step p t s (c + 1) b' with ⟨o, b''⟩
          cases o with
          | ok x => exact ih _ _ _
          | _ => rfl
        | _ => rfl
      | _ => rfl
    · rw [if_neg hc, if_neg hc]; rfl

theorem isWhile {σ : Type} {step : UInt8 → PropertyType → σ → Nat → M (σ × Nat)}
    (hs : ∀ p t c s, Shrinks (step p t s c)) (hd : ∀ p t c s, NoDiv (step p t s c)) :
    IsWhile step := by
  intro plen c s b o b'
  have ht : ∀ x, Takes (propBody step x) := fun x =>
    Takes.read_u8.bind fun _ => (Shrinks.liftOut _).bind fun _ => hs _ _ _ _
  have hn : ∀ x, NoDiv (propBody step x) := fun x =>
    Good.read_u8.noDiv.bind fun _ => (NoDiv.liftOut (property_ne_diverge _)).bind fun _ => hd _ _ _ _
  rw [propLoop_loopF, Prod.mk.injEq]
  constructor
  · rintro ⟨rfl, rfl⟩
    exact ⟨_, rfl, (loopF_iff ht hn).1 rfl⟩
  · rintro ⟨o', rfl, h⟩
    rw [(loopF_iff ht hn).2 h]
    exact ⟨rfl, rfl⟩

/-- The bodies of the property loops. -/
macro "nodiv" : tactic => `(tactic| (
  repeat first
    | exact NoDiv.throwE _
    | exact NoDiv.pure _
    | exact Good.read_u8.noDiv
    | exact Good.read_u16.noDiv
    | exact Good.read_u32.noDiv
    | exact Good.read_mqtt_bytes.noDiv
    | exact (Good.read_mqtt_string _).noDiv
    | exact Good.lengthM.noDiv
    | exact NoDiv.advance _
    | refine NoDiv.bind ?_ fun _ => ?_))

section
variable (mode : StrMode) (p : UInt8) (t : PropertyType) (c : Nat)

theorem ConnectProperties.noDiv (s : ConnectProperties) :
    NoDiv (ConnectProperties.step mode p t s c) := by
  cases t <;> (unfold ConnectProperties.step; nodiv)
theorem LastWillProperties.noDiv (s : LastWillProperties) :
    NoDiv (LastWillProperties.step mode p t s c) := by
  cases t <;> (unfold LastWillProperties.step; nodiv)
theorem ConnAckProperties.noDiv (s : ConnAckProperties) :
    NoDiv (ConnAckProperties.step mode p t s c) := by
  cases t <;> (unfold ConnAckProperties.step; nodiv)
theorem PublishProperties.noDiv (s : PublishProperties) :
    NoDiv (PublishProperties.step mode p t s c) := by
  cases t <;> (unfold PublishProperties.step; nodiv)
theorem PubAckProperties.noDiv (s : PubAckProperties) :
    NoDiv (PubAckProperties.step mode p t s c) := by
  cases t <;> (unfold PubAckProperties.step; nodiv)
theorem PubRecProperties.noDiv (s : PubRecProperties) :
    NoDiv (PubRecProperties.step mode p t s c) := by
  cases t <;> (unfold PubRecProperties.step; nodiv)
theorem PubRelProperties.noDiv (s : PubRelProperties) :
    NoDiv (PubRelProperties.step mode p t s c) := by
  cases t <;> (unfold PubRelProperties.step; nodiv)
theorem PubCompProperties.noDiv (s : PubCompProperties) :
    NoDiv (PubCompProperties.step mode p t s c) := by
  cases t <;> (unfold PubCompProperties.step; nodiv)
theorem SubscribeProperties.noDiv (s : SubscribeProperties) :
    NoDiv (SubscribeProperties.step mode p t s c) := by
  cases t <;> (unfold SubscribeProperties.step; nodiv)
theorem SubAckProperties.noDiv (s : SubAckProperties) :
    NoDiv (SubAckProperties.step mode p t s c) := by
  cases t <;> (unfold SubAckProperties.step; nodiv)
theorem UnsubscribeProperties.noDiv (s : UnsubscribeProperties) :
    NoDiv (UnsubscribeProperties.step mode p t s c) := by
  cases t <;> (unfold UnsubscribeProperties.step; nodiv)
theorem UnsubAckProperties.noDiv (s : UnsubAckProperties) :
    NoDiv (UnsubAckProperties.step mode p t s c) := by
  cases t <;> (unfold UnsubAckProperties.step; nodiv)
theorem DisconnectProperties.noDiv (s : DisconnectProperties) :
    NoDiv (DisconnectProperties.step mode p t s c) := by
  cases t <;> (unfold DisconnectProperties.step; nodiv)

end

end Mqtt
