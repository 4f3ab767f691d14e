import Verif.Proofs.Errors
import Verif.Spec.Diagnose
/-
The error of every reader is the one its first defective field calls for.
-/
set_option linter.unusedSectionVars false
set_option linter.unusedSimpArgs false

namespace Mqtt

open Spec

/-- `m` fails on `b` with `e`. -/
def FailsAt {α : Type} (m : M α) (b : Bytes) (e : Err) : Prop := ∃ r, m b = (.err e, r)

/-- `m` fails exactly as `E` says. -/
def Diag {α : Type} (m : M α) (E : Bytes → Err → Prop) : Prop := ∀ b e, FailsAt m b e ↔ E b e

/-- `m` succeeds exactly as `R` says. -/
def Reps {α : Type} (m : M α) (R : α → Bytes → Prop) : Prop :=
  ∀ a b r, m b = (.ok a, r) ↔ ∃ u, b = u ++ r ∧ R a u

section

variable {α β : Type} {m : M α} {f : α → M β} {b : Bytes} {e : Err}
  {R : α → Bytes → Prop} {E : Bytes → Err → Prop} {F : α → Bytes → Err → Prop}

theorem fails_pure {a : α} : ¬ FailsAt (pure a : M α) b e := by rintro ⟨r, h⟩; simp at h

theorem fails_throwE {e' : Err} : FailsAt (throwE e' : M α) b e ↔ e = e' := by
  constructor
  · rintro ⟨r, h⟩; simp at h; exact h.1.symm
  · rintro rfl; exact ⟨b, rfl⟩

theorem fails_bind : FailsAt (m >>= f) b e ↔ FailsAt m b e ∨
    ∃ a r, m b = (.ok a, r) ∧ FailsAt (f a) r e := by
  constructor
  · rintro ⟨r, h⟩
    rcases M.bind_eq_err.1 h with h | ⟨a, b1, h, h'⟩
    · exact .inl ⟨_, h⟩
    · exact .inr ⟨a, b1, h, _, h'⟩
  · rintro (⟨r, h⟩ | ⟨a, r, h, r', h'⟩)
    · exact ⟨r, M.bind_eq_err.2 (.inl h)⟩
    · exact ⟨r', M.bind_eq_err.2 (.inr ⟨a, r, h, h'⟩)⟩

theorem fails_seq (hE : Diag m E) (hR : Reps m R)
    (hF : ∀ a u r, b = u ++ r → R a u → (FailsAt (f a) r e ↔ F a r e)) :
    FailsAt (m >>= f) b e ↔ Field R E F b e := by
  rw [fails_bind, hE]
  refine or_congr_right ⟨?_, ?_⟩
  · rintro ⟨a, r, h, h'⟩
    obtain ⟨u, rfl, hu⟩ := (hR a b r).1 h
    exact ⟨a, u, r, rfl, hu, (hF a u r rfl hu).1 h'⟩
  · rintro ⟨a, u, r, rfl, hu, h'⟩
    exact ⟨a, r, (hR a _ r).2 ⟨u, rfl, hu⟩, (hF a u r rfl hu).2 h'⟩

theorem Diag.bind (hE : Diag m E) (hR : Reps m R) (hF : ∀ a, Diag (f a) (F a)) :
    Diag (m >>= f) (Field R E F) := fun _ _ => fails_seq hE hR fun a _ r _ _ => hF a r _

theorem Diag.bind_pure {g : α → β} (hE : Diag m E) : Diag (m >>= fun a => pure (g a)) E := by
  intro b e
  rw [fails_bind, hE]
  exact ⟨fun h => h.elim id fun ⟨_, _, _, h⟩ => absurd h fails_pure, .inl⟩

theorem Diag.congr {E' : Bytes → Err → Prop} (h : Diag m E) (he : ∀ b e, E b e ↔ E' b e) :
    Diag m E' := fun b e => (h b e).trans (he b e)

theorem Diag.throwE {e' : Err} : Diag (throwE e' : M α) fun _ e => e = e' :=
  fun _ _ => fails_throwE

theorem fails_of_eq {m' : M β} {b' : Bytes} (hok : ∀ e r, m b = (.err e, r) ↔ m' b' = (.err e, r)) :
    FailsAt m b e ↔ FailsAt m' b' e := exists_congr fun r => hok e r

end

variable {mode : StrMode}

/-! ### Fields -/

theorem diag_u8 : Diag read_u8 (NumErr 1) := by
  intro b e
  cases b with
  | nil =>
    simp only [FailsAt, read_u8_nil, NumErr]
    simp [eq_comm]
  | cons x b =>
    simp only [FailsAt, read_u8_cons, NumErr]
    simp

theorem reps_u8 : Reps read_u8 ByteRep := by
  intro a b r
  rw [read_u8_ok]
  exact ⟨fun h => ⟨[a], h, rfl⟩, fun ⟨u, h, hu⟩ => by rw [h, hu]; rfl⟩

theorem diag_u16 : Diag read_u16 (NumErr 2) := by
  intro b e
  by_cases hb : b.length < 2
  · simp only [FailsAt, read_u16_short hb, NumErr, hb, true_and]
    simp [eq_comm]
  · rcases b with _ | ⟨x, _ | ⟨y, b⟩⟩
    · simp at hb
    · simp at hb
    · simp only [FailsAt, read_u16_cons, NumErr, hb, false_and]
      simp

theorem reps_u16 : Reps read_u16 TwoRep := by
  intro a b r
  rw [read_u16_ok]
  exact ⟨fun h => ⟨_, h, rfl⟩, fun ⟨u, h, hu⟩ => by rw [h, hu]⟩

theorem diag_u32 : Diag read_u32 (NumErr 4) := by
  intro b e
  by_cases hb : b.length < 4
  · simp only [FailsAt, read_u32_short hb, NumErr, hb, true_and]
    simp [eq_comm]
  · rcases b with _ | ⟨y, _ | ⟨z, _ | ⟨t, _ | ⟨u, b⟩⟩⟩⟩
    iterate 4 simp at hb
    simp only [FailsAt, read_u32_cons, NumErr, hb, false_and]
    simp

theorem diag_bytes : Diag read_mqtt_bytes BinErr := by
  unfold read_mqtt_bytes
  refine Diag.congr (Diag.bind (F := fun n w e => w.length < n.toNat ∧ e = .BoundaryCrossed n.toNat)
    diag_u16 reps_u16 fun n b e => ?_) fun b e => ?_
  · unfold FailsAt
    rw [getBuf_bind]
    by_cases h : n.toNat > b.length
    · rw [if_pos h]
      have h' : b.length < n.toNat := h
      simp [h', eq_comm]
    · rw [if_neg h, splitTo, if_pos (by omega)]
      have h' : ¬ b.length < n.toNat := h
      simp [h']
  · refine or_congr_right ⟨?_, ?_⟩
    · rintro ⟨n, u, r, rfl, hu, h⟩
      cases hu
      exact ⟨n, r, rfl, h⟩
    · rintro ⟨n, r, rfl, h⟩
      exact ⟨n, _, r, rfl, rfl, h⟩

theorem reps_bytes : Reps read_mqtt_bytes BinRep := by
  intro a b r
  rw [read_mqtt_bytes_ok]
  exact ⟨fun h => ⟨_, h.1, h.2, rfl⟩, fun ⟨u, h, hu⟩ => ⟨by rw [h, hu.2], hu.1⟩⟩

theorem reps_text : Reps (read_mqtt_string mode) (TextRep mode) := by
  intro a b r
  rw [Unsubscribe.one_ok]
  exact Iff.rfl

theorem diag_text : Diag (read_mqtt_string mode) (TextErr mode) := by
  unfold read_mqtt_string
  refine Diag.congr (Diag.bind (F := fun s _ e => ¬ TextOk mode s ∧ e = .TopicNotUtf8)
    diag_bytes reps_bytes fun s b e => ?_) fun b e => ?_
  · cases mode with
    | binary =>
      have : TextOk .binary s := by intro h; cases h
      simp only [fails_pure, this, not_true, false_and]
    | utf8 =>
      have ht : TextOk .utf8 s ↔ utf8Valid s = true :=
        ⟨fun h => (utf8Valid_iff s).2 (h rfl), fun h _ => (utf8Valid_iff s).1 h⟩
      simp only [ht]
      by_cases h : utf8Valid s = true
      · simp only [h, if_true, not_true, false_and, fails_pure]
      · simp only [h, if_false, fails_throwE, true_and, not_false_iff]
        simp [h, fails_throwE]
  · refine or_congr_right ⟨?_, ?_⟩
    · rintro ⟨s, u, r, rfl, hu, h⟩
      exact ⟨s, r, by rw [hu.2], hu.1, h⟩
    · rintro ⟨s, r, rfl, hs, h⟩
      exact ⟨s, _, r, rfl, ⟨hs, rfl⟩, h⟩

theorem varErr_iff {b : Bytes} {e : Err} : FailsAt lengthM b e ↔ VarErr b e := by
  have hl : FailsAt lengthM b e ↔ length b = .err e := by
    unfold FailsAt lengthM
    constructor
    · rintro ⟨r, h⟩; exact (Prod.mk.inj h).1
    · intro h; exact ⟨b, by rw [h]⟩
  rw [hl]
  constructor
  · intro h
    rcases varint_trichotomy b with ⟨w, m, r, rfl, hw⟩ | ⟨h1, h2⟩ | ⟨w, r, rfl, h1, h2⟩
    · rw [length_rep hw r] at h; cases h
    · rw [length_short h1 h2] at h; cases h
      exact .inl ⟨h1, h2, rfl⟩
    · rw [length_long r h1 h2] at h; cases h
      exact .inr ⟨w, r, rfl, h1, h2, rfl⟩
  · rintro (⟨h1, h2, rfl⟩ | ⟨v, r, rfl, h1, h2, rfl⟩)
    · exact length_short h1 h2
    · exact length_long r h1 h2

/-- A number in one to four bytes. -/
theorem fails_varint {α : Type} {f : Nat × Nat → M α} {b : Bytes} {e : Err} :
    FailsAt (lengthM >>= fun x => advance x.1 >>= fun _ => f x) b e ↔
      VarErr b e ∨ ∃ v n r, b = v ++ r ∧ VarintRep v n ∧ FailsAt (f (v.length, n)) r e := by
  rw [fails_bind, varErr_iff]
  refine or_congr_right ⟨?_, ?_⟩
  · rintro ⟨⟨k, n⟩, r, h, h'⟩
    simp only [lengthM, Prod.mk.injEq] at h
    obtain ⟨h, rfl⟩ := h
    obtain ⟨w, r', rfl, hw, rfl⟩ := length_ok h
    rw [fails_bind] at h'
    rcases h' with ⟨r, h'⟩ | ⟨a, r, h1, h'⟩
    · rw [advance_append] at h'; simp at h'
    · rw [advance_append] at h1
      simp only [Prod.mk.injEq, true_and] at h1
      subst h1
      exact ⟨w, n, _, rfl, hw, h'⟩
  · rintro ⟨v, n, r, rfl, hv, h⟩
    refine ⟨(v.length, n), v ++ r, by rw [lengthM, length_rep hv r], ?_⟩
    rw [fails_bind]
    exact .inr ⟨(), r, advance_append v r, h⟩

/-! ### Property sections -/

theorem valueType_toU8 (ty : PropertyType) : ∃ t, valueType ty.toU8 = some t := by
  cases ty <;> exact ⟨_, rfl⟩

theorem diag_readVal (ty : PropertyType) {t : ValueType} (ht : valueType ty.toU8 = some t) :
    Diag (readVal mode ty) (ValErr mode t) := by
  cases ty
  case SubscriptionIdentifier =>
    cases ht
    intro b e
    rw [readVal, fails_varint]
    exact ⟨fun h => h.elim id fun ⟨_, _, _, _, _, h⟩ => absurd h fails_pure, .inl⟩
  case UserProperty =>
    cases ht
    exact Diag.bind diag_text reps_text fun _ => Diag.bind_pure diag_text
  all_goals
    cases ht
    first
    | exact Diag.bind_pure diag_u8
    | exact Diag.bind_pure diag_u16
    | exact Diag.bind_pure diag_u32
    | exact Diag.bind_pure diag_text
    | exact Diag.bind_pure diag_bytes

/-- All identifiers in a list are defined by MQTT 5. -/
def KnownIds (ids : List UInt8) : Prop := ∀ x ∈ ids, ∃ ty, property x = .ok ty

instance (ids : List UInt8) : Decidable (KnownIds ids) :=
  decidable_of_iff (∀ x ∈ ids, (match property x with | .ok _ => true | _ => false) = true) (by
    refine forall_congr' fun x => forall_congr' fun _ => ?_
    cases property x <;> simp)

variable {ids : List UInt8}

theorem gLoop_fails (hk : KnownIds ids) (plen : Nat) : ∀ (fuel c : Nat) (l : List Property)
    (b : Bytes) (e : Err), b.length < fuel →
    (FailsAt (gLoop mode ids plen fuel c l) b e ↔
      ∃ ps ws c' r, b = ws ++ r ∧ Run plen c ps ws c' ∧ c' < plen ∧ (∀ p ∈ ps, p.Ok mode ids) ∧
        PropertyErr mode ids r e) := by
  intro fuel
  induction fuel with
  | zero => intro c l b e h; omega
  | succ fuel ih =>
    intro c l b e hb
    constructor
    · intro h
      rw [gLoop] at h
      by_cases hc : c < plen
      · rw [if_pos hc, fails_bind] at h
        rcases h with h | ⟨x, b1, h1, h⟩
        · exact ⟨[], [], c, b, rfl, .nil c, hc, by simp, .inl ((diag_u8 b e).1 h)⟩
        · rw [read_u8_ok] at h1
          subst h1
          have stop : ∀ (h : (x ∉ ids ∧ e = .InvalidPropertyType x) ∨
              (x ∈ ids ∧ ∃ ty, valueType x = some ty ∧ ValErr mode ty b1 e)), ∃ ps ws c' r,
              x :: b1 = ws ++ r ∧ Run plen c ps ws c' ∧ c' < plen ∧ (∀ p ∈ ps, p.Ok mode ids) ∧
              PropertyErr mode ids r e := fun h =>
            ⟨[], [], c, x :: b1, rfl, .nil c, hc, by simp, .inr ⟨x, b1, rfl, h⟩⟩
          rcases property_spec x with ⟨ty, h1, h2⟩ | h1
          · rw [h1, liftOut_ok, pure_bind, h2] at h
            by_cases ha : x ∈ ids
            · rw [if_pos ha, fails_bind] at h
              rcases h with h | ⟨⟨p, k⟩, b2, hv, h⟩
              · obtain ⟨t, ht⟩ := valueType_toU8 ty
                exact stop (.inr ⟨ha, t, h2 ▸ ht, (diag_readVal ty ht b1 e).1 h⟩)
              · obtain ⟨hid, ht, v, rfl, hrep, rfl⟩ := readVal_ok.1 hv
                have hx : x = p.id := by rw [hid, h2]
                obtain ⟨ps, ws, c', r, rfl, hrun, hle, hok, hp⟩ :=
                  (ih _ _ b2 e (by simp at hb; omega)).1 h
                refine ⟨p :: ps, (p.id :: v) ++ ws, c', r, by simp [hx], Run.cons hc hrep ?_,
                  hle, ?_, hp⟩
                · simp only [List.length_cons]
                  rw [show c + (v.length + 1) + p.drift = c + 1 + (v.length + p.drift) by omega]
                  exact hrun
                · intro q hq
                  rcases List.mem_cons.1 hq with rfl | hq
                  · exact ⟨hx ▸ ha, ht⟩
                  · exact hok q hq
            · rw [if_neg ha, fails_throwE] at h
              exact stop (.inl ⟨ha, h⟩)
          · rw [h1, liftOut_err, throwE_bind, fails_throwE] at h
            refine stop (.inl ⟨fun ha => ?_, h⟩)
            obtain ⟨ty, h2⟩ := hk x ha
            rw [h1] at h2; cases h2
      · rw [if_neg hc] at h
        exact absurd h fails_pure
    · rintro ⟨ps, ws, c', r, rfl, hrun, hc', hok, hp⟩
      have hl := run_length hrun
      have := gLoop_prefix hrun hok (fuel + 1 - ps.length) l r
      rw [show ps.length + (fuel + 1 - ps.length) = fuel + 1 by simp at hb; omega] at this
      unfold FailsAt
      rw [this, show fuel + 1 - ps.length = (fuel - ps.length) + 1 by simp at hb; omega, gLoop,
        if_pos hc']
      show FailsAt _ _ _
      rw [fails_bind]
      rcases hp with h | ⟨x, t, rfl, h⟩
      · exact .inl ((diag_u8 r e).2 h)
      · refine .inr ⟨x, t, read_u8_cons x t, ?_⟩
        rcases property_spec x with ⟨ty, h1, h2⟩ | h1
        · rw [h1, liftOut_ok, pure_bind, h2]
          rcases h with ⟨ha, rfl⟩ | ⟨ha, t', ht, h⟩
          · rw [if_neg ha, fails_throwE]
          · rw [if_pos ha, fails_bind]
            exact .inl ((diag_readVal ty (h2 ▸ ht) t e).2 h)
        · rw [h1, liftOut_err, throwE_bind, fails_throwE]
          rcases h with ⟨ha, rfl⟩ | ⟨ha, t', ht, h⟩
          · rfl
          · obtain ⟨ty, h2⟩ := hk x ha
            rw [h1] at h2; cases h2

theorem diag_sec (hk : KnownIds ids) : Diag (gRead mode ids) (SecErr mode ids) := by
  intro b e
  rw [gRead, fails_varint]
  refine or_congr_right ⟨?_, ?_⟩
  · rintro ⟨v, n, r, rfl, hv, h⟩
    by_cases hn : n = 0
    · subst hn
      exact absurd h fails_pure
    · simp only [hn, if_false] at h
      have h' : FailsAt (gLoop mode ids n (r.length + 1) 0 []) r e := by
        obtain ⟨r', h⟩ := h
        rw [getBuf_bind] at h
        rcases M.bind_eq_err.1 h with h | ⟨_, _, _, h⟩
        · exact ⟨r', h⟩
        · simp at h
      obtain ⟨ps, ws, c', t, rfl, hrun, hc', hok, hp⟩ :=
        (gLoop_fails hk n _ _ _ r e (by omega)).1 h'
      exact ⟨v, n, ps, ws, c', t, rfl, hv, hrun, hc', hok, hp⟩
  · rintro ⟨v, n, ps, ws, c', t, rfl, hv, hrun, hc', hok, hp⟩
    refine ⟨v, n, _, rfl, hv, ?_⟩
    simp only [show n ≠ 0 by omega, if_false]
    obtain ⟨r', h⟩ := (gLoop_fails (l := []) hk n ((ws ++ t).length + 1) 0 (ws ++ t) e
      (by omega)).2 ⟨ps, ws, c', t, rfl, hrun, hc', hok, hp⟩
    exact ⟨r', by rw [getBuf_bind]; exact M.bind_err h⟩

theorem reps_sec : Reps (gRead mode ids) (PropSec mode ids) := fun _ _ _ => gRead_sec

theorem diag_props {σ : Type} {read : M (Option σ)} {ofList : List Property → σ}
    (he : read = gRead mode ids >>= fun o => pure (o.map ofList)) (hk : KnownIds ids) :
    Diag read (SecErr mode ids) := he ▸ Diag.bind_pure (diag_sec hk)

/-! ### Packets -/

section

variable {α : Type}

/-- Skipping the fixed header. -/
theorem fails_hdr {n : Nat} {f : Unit → M α} {hdr body : Bytes} {e : Err} (h : hdr.length = n) :
    FailsAt (advance n >>= f) (hdr ++ body) e ↔ FailsAt (f ()) body e := by
  unfold FailsAt; rw [M.bind_ok (advance_hdr h)]

theorem fails_ite {c : Prop} [Decidable c] {m1 m2 : M α} {b : Bytes} {e : Err} :
    FailsAt (if c then m1 else m2) b e ↔ (c ∧ FailsAt m1 b e) ∨ (¬ c ∧ FailsAt m2 b e) := by
  by_cases h : c <;> simp [h]

/-- A reason code, decoded at the end. -/
theorem diag_code {ρ : Type} {ofU8 : UInt8 → Out ρ} {codeOf : ρ → UInt8} {mk : UInt8 → Err}
    (hspec : ∀ x, (∃ r, ofU8 x = .ok r ∧ codeOf r = x) ∨ ofU8 x = .err (mk x))
    (hok : ∀ x r, ofU8 x = .ok r ↔ x = codeOf r) (x : UInt8) :
    Diag (liftOut (ofU8 x)) fun _ e => ¬ (∃ r, codeOf r = x) ∧ e = mk x := by
  intro b e
  rcases hspec x with ⟨r, h, h'⟩ | h
  · rw [h, liftOut_ok]
    exact ⟨fun h => absurd h fails_pure, fun hn => absurd ⟨r, h'⟩ hn.1⟩
  · rw [h, liftOut_err, fails_throwE]
    refine ⟨fun he => ⟨?_, he⟩, fun he => he.2⟩
    rintro ⟨r, hr⟩
    rw [(hok x r).2 hr.symm] at h; cases h

/-- The common shape of the four acknowledgements of a PUBLISH. -/
theorem fails_ack {ρ σ : Type} {ofU8 : UInt8 → Out ρ} {codeOf : ρ → UInt8}
    {ofList : List Property → σ} {ids : List UInt8} {read : M (Option σ)}
    (hr : read = gRead mode ids >>= fun o => pure (o.map ofList)) (hk : KnownIds ids)
    (hspec : ∀ x, (∃ r, ofU8 x = .ok r ∧ codeOf r = x) ∨
      ofU8 x = .err (.InvalidConnectReturnCode x))
    (hok : ∀ x r, ofU8 x = .ok r ↔ x = codeOf r) {n : Nat} {body : Bytes} (hn : n = body.length)
    {a : UInt16 → α} {g : UInt16 → ρ → α} {h : UInt16 → Option σ → ρ → α} {e : Err} :
    FailsAt (read_u16 >>= fun pkid => if n = 2 then pure (a pkid) else
      read_u8 >>= fun x => if n < 4 then liftOut (ofU8 x) >>= fun r => pure (g pkid r) else
        read >>= fun o => liftOut (ofU8 x) >>= fun r => pure (h pkid o r)) body e ↔
      AckErr mode ids (fun x => ∃ r, codeOf r = x) body e := by
  subst hr
  refine fails_seq diag_u16 reps_u16 fun pkid u r hb hu => ?_
  cases hu
  have hl : body.length = 2 + r.length := by rw [hb]; simp
  rcases r with _ | ⟨x, t⟩
  · rw [if_pos (by rw [hn, hl]; rfl)]
    exact ⟨fun h => absurd h fails_pure, fun ⟨_, _, h, _⟩ => by cases h⟩
  · rw [if_neg (by rw [hn, hl]; simp)]
    have hx : FailsAt (read_u8 >>= fun x => if n < 4 then liftOut (ofU8 x) >>= fun r =>
        pure (g pkid r) else (gRead mode ids >>= fun o => pure (o.map ofList)) >>= fun o =>
          liftOut (ofU8 x) >>= fun r => pure (h pkid o r)) (x :: t) e ↔
        FailsAt (if n < 4 then liftOut (ofU8 x) >>= fun r =>
        pure (g pkid r) else (gRead mode ids >>= fun o => pure (o.map ofList)) >>= fun o =>
          liftOut (ofU8 x) >>= fun r => pure (h pkid o r)) t e := by
      unfold FailsAt; rw [M.bind_ok (read_u8_cons x t)]
    rw [hx, fails_ite]
    simp only [bind_assoc, pure_bind]
    have h1 := Diag.bind_pure (g := g pkid) (diag_code hspec hok x) t e
    have h2 := Diag.bind (f := fun o => liftOut (ofU8 x) >>= fun r =>
      pure (h pkid (Option.map ofList o) r)) (diag_sec (mode := mode) hk) reps_sec
      (fun o => Diag.bind_pure (g := h pkid (o.map ofList)) (diag_code hspec hok x)) t e
    have ht : n < 4 ↔ t = [] := by
      rw [hn, hl]; cases t <;> simp <;> omega
    rw [h1, h2, ht]
    constructor
    · rintro (⟨h, h'⟩ | ⟨h, h'⟩)
      · exact ⟨x, t, rfl, .inl ⟨h, h'⟩⟩
      · exact ⟨x, t, rfl, .inr ⟨h, h'⟩⟩
    · rintro ⟨x', t', hxt, h⟩
      cases hxt
      exact h

end

variable {fh : FixedHeader} {hdr body : Bytes} {e : Err}

theorem PubAck.diag (hh : hdr.length = fh.fixed_header_len) (hr : fh.remaining_len = body.length) :
    FailsAt (PubAck.read mode fh) (hdr ++ body) e ↔
      AckErr mode PubAckProperties.allowed (fun x => ∃ r, pubAckCode r = x) body e :=
  (fails_hdr hh).trans (fails_ack (PubAckProperties.read_eq mode) (by decide)
    PubAckReason.ofU8_spec (fun _ _ => PubAckReason.ofU8_ok) hr)

theorem PubRec.diag (hh : hdr.length = fh.fixed_header_len) (hr : fh.remaining_len = body.length) :
    FailsAt (PubRec.read mode fh) (hdr ++ body) e ↔
      AckErr mode PubRecProperties.allowed (fun x => ∃ r, pubRecCode r = x) body e :=
  (fails_hdr hh).trans (fails_ack (PubRecProperties.read_eq mode) (by decide)
    PubRecReason.ofU8_spec (fun _ _ => PubRecReason.ofU8_ok) hr)

theorem PubRel.diag (hh : hdr.length = fh.fixed_header_len) (hr : fh.remaining_len = body.length) :
    FailsAt (PubRel.read mode fh) (hdr ++ body) e ↔
      AckErr mode PubRelProperties.allowed (fun x => ∃ r, pubRelCode r = x) body e :=
  (fails_hdr hh).trans (fails_ack (PubRelProperties.read_eq mode) (by decide)
    PubRelReason.ofU8_spec (fun _ _ => PubRelReason.ofU8_ok) hr)

theorem PubComp.diag (hh : hdr.length = fh.fixed_header_len) (hr : fh.remaining_len = body.length) :
    FailsAt (PubComp.read mode fh) (hdr ++ body) e ↔
      AckErr mode PubCompProperties.allowed (fun x => ∃ r, pubCompCode r = x) body e :=
  (fails_hdr hh).trans (fails_ack (PubCompProperties.read_eq mode) (by decide)
    PubCompReason.ofU8_spec (fun _ _ => PubCompReason.ofU8_ok) hr)

theorem ConnAck.diag (hh : hdr.length = fh.fixed_header_len) :
    FailsAt (ConnAck.read mode fh) (hdr ++ body) e ↔ ConnAckErr mode body e := by
  refine (fails_hdr hh).trans ?_
  simp only [ConnAckProperties.read_eq, bind_assoc, pure_bind]
  refine Diag.bind diag_u8 reps_u8 (fun fl => Diag.bind diag_u8 reps_u8 fun x =>
    Diag.bind (diag_sec (by decide)) reps_sec fun o => Diag.bind_pure ?_) body e
  intro b e
  rcases ConnectReturnCode.ofU8_spec x with ⟨r, h, h'⟩ | h
  · rw [h, liftOut_ok]
    exact ⟨fun h => absurd h fails_pure, fun hn => absurd h' (hn.1 r)⟩
  · rw [h, liftOut_err, fails_throwE]
    exact ⟨fun he => ⟨(ConnectReturnCode.err h).1, he⟩, fun he => he.2⟩

/-! Lists. -/

theorem gSeq_fails {α : Type} {one : M α} {R : α → Bytes → Prop} {E : Bytes → Err → Prop}
    (hR : Reps one R) (hE : Diag one E) (hpos : ∀ x w, R x w → 1 ≤ w.length) :
    ∀ (fuel : Nat) (acc : List α) (b : Bytes) (e : Err), b.length < fuel →
      (FailsAt (gSeq one fuel acc) b e ↔ ListErr R E b e) := by
  intro fuel
  induction fuel with
  | zero => intro acc b e h; omega
  | succ fuel ih =>
    intro acc b e hb
    by_cases h0 : b = []
    · subst h0
      constructor
      · rintro ⟨r, h⟩; rw [gSeq_nil] at h; simp at h
      · rintro ⟨xs, u, r, h, _, hr, _⟩
        exact absurd (List.append_eq_nil_iff.1 h.symm).2 hr
    · have hc : FailsAt (gSeq one (fuel + 1) acc) b e ↔
          FailsAt (one >>= fun x => gSeq one fuel (acc ++ [x])) b e := by
        unfold FailsAt; rw [gSeq_cons one fuel acc h0]
      rw [hc, fails_bind, hE]
      constructor
      · rintro (h | ⟨a, r, h, h'⟩)
        · exact ⟨[], [], b, rfl, .nil, h0, h⟩
        · obtain ⟨u, rfl, hu⟩ := (hR a b r).1 h
          have := hpos a u hu
          obtain ⟨xs, w, r', rfl, hw, hr, he⟩ :=
            (ih (acc ++ [a]) r e (by simp at hb; omega)).1 h'
          exact ⟨a :: xs, u ++ w, r', by simp, .cons hu hw, hr, he⟩
      · rintro ⟨xs, u, r, rfl, hu, hr, he⟩
        cases hu with
        | nil => exact .inl he
        | @cons x w xs ws hx hxs =>
          have := hpos x w hx
          refine .inr ⟨x, ws ++ r, (hR x _ _).2 ⟨w, by simp, hx⟩, ?_⟩
          exact (ih (acc ++ [x]) (ws ++ r) e (by simp at hb ⊢; omega)).2
            ⟨xs, ws, r, rfl, hxs, hr, he⟩

/-- Reason codes to the end of the body. -/
theorem fails_codes {ρ α : Type} {ofU8 : UInt8 → Out ρ} {codeOf : ρ → UInt8} {mk : UInt8 → Err}
    (hspec : ∀ x, (∃ r, ofU8 x = .ok r ∧ codeOf r = x) ∨ ofU8 x = .err (mk x))
    (hok : ∀ x r, ofU8 x = .ok r ↔ x = codeOf r)
    (hone : ∀ {b r x}, (read_u8 >>= fun c => liftOut (ofU8 c)) b = (.ok x, r) ↔
      ∃ w, b = w ++ r ∧ w = [codeOf x])
    {f : List ρ → α} {b : Bytes} {e : Err} :
    FailsAt (getBuf >>= fun bytes => if bytes.isEmpty then throwE .MalformedPacket else
      gSeq (read_u8 >>= fun c => liftOut (ofU8 c)) (bytes.length + 1) [] >>= fun l => pure (f l))
      b e ↔
    (b = [] ∧ e = .MalformedPacket) ∨ ∃ xs x t, b = xs ++ x :: t ∧
      (∀ y ∈ xs, ∃ r, codeOf r = y) ∧ ¬ (∃ r, codeOf r = x) ∧ e = mk x := by
  have hb : FailsAt (getBuf >>= fun bytes => if bytes.isEmpty then throwE .MalformedPacket else
      gSeq (read_u8 >>= fun c => liftOut (ofU8 c)) (bytes.length + 1) [] >>= fun l => pure (f l))
      b e ↔ FailsAt (if b.isEmpty then throwE .MalformedPacket else
      gSeq (read_u8 >>= fun c => liftOut (ofU8 c)) (b.length + 1) [] >>= fun l => pure (f l))
      b e := by unfold FailsAt; rw [getBuf_bind]
  rw [hb, fails_ite]
  have hE : Diag (read_u8 >>= fun c => liftOut (ofU8 c)) _ :=
    Diag.bind diag_u8 reps_u8 fun c => diag_code hspec hok c
  have hs := gSeq_fails (fun a b r => hone) hE (fun x w h => by rw [h]; simp) (b.length + 1) []
    b e (by omega)
  have hg : FailsAt (gSeq (read_u8 >>= fun c => liftOut (ofU8 c)) (b.length + 1) [] >>= fun l =>
      pure (f l)) b e ↔ FailsAt (gSeq (read_u8 >>= fun c => liftOut (ofU8 c)) (b.length + 1) [])
      b e := by
    rw [fails_bind]
    exact ⟨fun h => h.elim id fun ⟨_, _, _, h⟩ => absurd h fails_pure, .inl⟩
  rw [hg, hs, fails_throwE]
  refine or_congr (by simp) ⟨?_, ?_⟩
  · rintro ⟨-, xs, u, r, rfl, hu, hr, he⟩
    rw [seqRep_map] at hu
    subst hu
    rcases he with ⟨h, -⟩ | ⟨x, u, t, rfl, rfl, h⟩
    · cases r <;> simp at h hr
    · exact ⟨xs.map codeOf, x, t, by simp, by simp, h⟩
  · rintro ⟨xs, x, t, rfl, hk, h⟩
    refine ⟨by simp, ?_⟩
    obtain ⟨rs, rfl⟩ : ∃ rs : List ρ, xs = rs.map codeOf := by
      clear h hg hs hb
      induction xs with
      | nil => exact ⟨[], rfl⟩
      | cons y ys ih =>
        obtain ⟨r, hr⟩ := hk y (.head _)
        obtain ⟨rs, hrs⟩ := ih (fun z hz => hk z (.tail _ hz))
        exact ⟨r :: rs, by simp [hr, ← hrs]⟩
    exact ⟨rs, _, x :: t, rfl, seqRep_map.2 rfl, by simp, .inr ⟨x, [x], t, rfl, rfl, h⟩⟩

theorem SubAck.diag (hh : hdr.length = fh.fixed_header_len) :
    FailsAt (SubAck.read mode fh) (hdr ++ body) e ↔
      CodesErr mode SubAckProperties.allowed (fun x => ∃ r, subAckCode r = x) body e := by
  refine (fails_hdr hh).trans ?_
  simp only [SubAckProperties.read_eq, bind_assoc, pure_bind, SubAck.readLoop_eq]
  exact Diag.bind diag_u16 reps_u16 (fun _ => Diag.bind (diag_sec (by decide)) reps_sec
    fun _ _ _ => fails_codes SubscribeReasonCode.ofU8_spec
      (fun _ _ => SubscribeReasonCode.ofU8_ok) SubAck.one_ok) body e

theorem UnsubAck.diag (hh : hdr.length = fh.fixed_header_len) :
    FailsAt (UnsubAck.read mode fh) (hdr ++ body) e ↔
      CodesErr mode UnsubAckProperties.allowed (fun x => ∃ r, unsubAckCode r = x) body e := by
  refine (fails_hdr hh).trans ?_
  simp only [UnsubAckProperties.read_eq, bind_assoc, pure_bind, UnsubAck.readLoop_eq]
  exact Diag.bind diag_u16 reps_u16 (fun _ => Diag.bind (diag_sec (by decide)) reps_sec
    fun _ _ _ => fails_codes UnsubAckReason.ofU8_spec
      (fun _ _ => UnsubAckReason.ofU8_ok) UnsubAck.one_ok) body e

theorem Unsubscribe.diag (hh : hdr.length = fh.fixed_header_len) :
    FailsAt (Unsubscribe.read mode fh) (hdr ++ body) e ↔ UnsubscribeErr mode body e := by
  refine (fails_hdr hh).trans ?_
  simp only [UnsubscribeProperties.read_eq, bind_assoc, pure_bind, Unsubscribe.readLoop_eq]
  refine Diag.bind diag_u16 reps_u16 (fun pkid => Diag.bind (diag_sec (by decide)) reps_sec
    fun o b e => ?_) body e
  have hs := gSeq_fails (reps_text (mode := mode)) diag_text
    (fun x w h => Unsubscribe.one_pos h) (b.length + 1) [] b e (by omega)
  rw [← hs]
  constructor
  · rintro ⟨r, h⟩
    rw [getBuf_bind] at h
    rcases M.bind_eq_err.1 h with h | ⟨_, _, _, h⟩
    · exact ⟨r, h⟩
    · simp at h
  · rintro ⟨r, h⟩
    exact ⟨r, by rw [getBuf_bind]; exact M.bind_err h⟩

theorem Filter.diag : Diag (Filter.readOne mode) (FilterErr mode) := by
  rw [Filter.readOne_eq]
  refine Diag.bind diag_text reps_text fun p => Diag.bind diag_u8 reps_u8 fun o =>
    Diag.bind_pure fun b e => ?_
  rcases optRest_spec o with ⟨q, nl, pr, rr, h2, h3⟩ | ⟨h2, h3⟩ | ⟨h2, h3, h4⟩
  · rw [h2, liftOut_ok]
    refine ⟨fun h => absurd h fails_pure, fun h => ?_⟩
    exfalso
    have h3 := h3 []
    cases q <;> cases nl <;> cases pr <;> cases rr <;> simp [filterOptions, qosNum, bit] at h3 <;>
        omega
  · rw [h2, liftOut_err, fails_throwE]
    simp [h3]
  · rw [h2, liftOut_err, fails_throwE]
    simp [h3, h4]

theorem Subscribe.diag (hh : hdr.length = fh.fixed_header_len) :
    FailsAt (Subscribe.read mode fh) (hdr ++ body) e ↔ SubscribeErr mode body e := by
  refine (fails_hdr hh).trans ?_
  simp only [SubscribeProperties.read_eq, bind_assoc, pure_bind, Filter.read,
    Filter.readLoop_eq]
  refine Diag.bind diag_u16 reps_u16 (fun pkid => Diag.bind (diag_sec (by decide)) reps_sec
    fun o b e => ?_) body e
  have hs := gSeq_fails (fun _ _ _ => Filter.one_ok) (Filter.diag (mode := mode))
    (fun x w h => Filter.one_pos h) (b.length + 1) [] b e (by omega)
  have hg := fun l r => gSeq_ok (one := Filter.readOne mode) Filter.one_ok Filter.one_pos
    (b.length + 1) (acc := []) (b := b) (l := l) (r := r) (by omega)
  rw [← hs]
  constructor
  · rintro ⟨r, h⟩
    rw [getBuf_bind] at h
    rcases M.bind_eq_err.1 h with h | ⟨l, b1, h1, h⟩
    · exact .inr ⟨r, h⟩
    · left
      obtain ⟨rfl, xs, hl, hx⟩ := (hg _ _).1 h1
      rw [List.nil_append] at hl
      subst hl
      cases l with
      | nil =>
        cases hx
        exact ⟨rfl, (Out.err.inj (Prod.mk.inj h).1).symm⟩
      | cons x xs => simp at h
  · rintro (⟨rfl, rfl⟩ | ⟨r, h⟩)
    · exact ⟨[], rfl⟩
    · exact ⟨r, by rw [getBuf_bind]; exact M.bind_err h⟩

theorem Disconnect.diag (hh : hdr.length = fh.fixed_header_len)
    (hr : fh.remaining_len = body.length) (ht : fh.byte1.toNat / 16 = 14) :
    FailsAt (Disconnect.read mode fh) (hdr ++ body) e ↔
      DisconnectErr mode fh.byte1.toNat body e := by
  refine (fails_hdr hh).trans ?_
  obtain ⟨h1, h2⟩ := bits_disconnect fh.byte1
  rw [if_neg (show ¬ (fh.byte1 >>> 4 ≠ PacketType.Disconnect.toU8) from fun h =>
    h (UInt8.toNat_inj.1 (by rw [h1, ht]; rfl)))]
  have hz : fh.byte1 &&& 0b00001111 ≠ 0x00 ↔ fh.byte1.toNat % 16 ≠ 0 := by
    rw [← h2]
    exact not_congr ⟨fun h => by rw [h]; rfl, fun h => UInt8.toNat_inj.1 h⟩
  rw [fails_ite, fails_throwE, hz]
  refine or_congr_right ?_
  have hz' : ¬ (fh.byte1.toNat % 16 ≠ 0) ↔ fh.byte1.toNat % 16 = 0 := Classical.not_not
  rw [hz']
  refine and_congr_right fun _ => ?_
  rw [hr]
  rcases body with _ | ⟨x, t⟩
  · rw [if_pos (by rfl)]
    exact ⟨fun h => absurd h fails_pure, fun ⟨_, _, h, _⟩ => by cases h⟩
  · rw [if_neg (by simp)]
    simp only [DisconnectProperties.read_eq, bind_assoc, pure_bind]
    have key : ∀ {α : Type} (f : UInt8 → M α), FailsAt (read_u8 >>= f) (x :: t) e ↔
        FailsAt (f x) t e := fun f => by unfold FailsAt; rw [M.bind_ok (read_u8_cons x t)]
    rw [key]
    rcases DisconnectReasonCode.ofU8_spec x with ⟨r, h, h'⟩ | h
    · rw [h, liftOut_ok, pure_bind, (Diag.bind_pure (diag_sec (by decide))) t e]
      constructor
      · intro hs; exact ⟨x, t, rfl, .inr ⟨⟨r, h'⟩, hs⟩⟩
      · rintro ⟨x', t', hxt, hs⟩
        cases hxt
        rcases hs with hs | hs
        · exact absurd h' (hs.1 r)
        · exact hs.2
    · rw [h, liftOut_err, throwE_bind, fails_throwE]
      have hn : ∀ r, disconnectCode r ≠ x := fun r hr => by
        rw [DisconnectReasonCode.ofU8_ok.2 hr.symm] at h; cases h
      constructor
      · intro he; exact ⟨x, t, rfl, .inl ⟨hn, he⟩⟩
      · rintro ⟨x', t', hxt, hs⟩
        cases hxt
        rcases hs with hs | ⟨⟨r, hr⟩, _⟩
        · exact hs.2
        · exact absurd hr (hn r)

/-- The QoS bits of a byte. -/
theorem fails_qos {α : Type} {x : UInt8} {n : Nat} (hx : x.toNat = n) (hn : n < 4)
    {f : QoS → M α} {b : Bytes} {e : Err} :
    FailsAt (qosOrErr x >>= f) b e ↔
      (n = 3 ∧ e = .InvalidQoS 3) ∨ ∃ q, qosNum q = n ∧ FailsAt (f q) b e := by
  unfold qosOrErr
  cases hq : qos x with
  | none =>
    have h2 := (qos_none x).1 hq
    have h3 : x = 3 := UInt8.toNat_inj.1 (by show x.toNat = 3; omega)
    have hn3 : n = 3 := by omega
    show FailsAt (throwE (.InvalidQoS x) >>= f) b e ↔ _
    rw [throwE_bind, fails_throwE, h3]
    constructor
    · intro h; exact .inl ⟨hn3, h⟩
    · rintro (⟨-, h⟩ | ⟨q, h, -⟩)
      · exact h
      · exfalso; cases q <;> simp [qosNum] at h <;> omega
  | some q =>
    have h1 := (qos_spec x q).1 hq
    show FailsAt (pure q >>= f) b e ↔ _
    rw [pure_bind]
    constructor
    · intro h; exact .inr ⟨q, by omega, h⟩
    · rintro (⟨h, -⟩ | ⟨q', h, h'⟩)
      · exfalso; cases q <;> simp [qosNum] at h1 <;> omega
      · have : q' = q := by
          cases q <;> cases q' <;> simp [qosNum] at h h1 ⊢ <;> omega
        exact this ▸ h'

theorem publishRest_diag (x : UInt8) (q : QoS) : Diag (publishRest mode x q)
    (Field (TextRep mode) (TextErr mode) fun _ =>
      if q = .AtMostOnce then SecErr mode PublishProperties.allowed
      else Field TwoRep (NumErr 2) fun id w e => (id = 0 ∧ e = .PacketIdZero) ∨
        (id ≠ 0 ∧ SecErr mode PublishProperties.allowed w e)) := by
  unfold publishRest
  refine Diag.bind diag_text reps_text fun topic => ?_
  have hsec : ∀ {α : Type} (f : Option PublishProperties → Bytes → α),
      Diag (PublishProperties.read mode >>= fun properties => getBuf >>= fun bytes =>
        pure (f properties bytes)) (SecErr mode PublishProperties.allowed) := by
    intro α f b e
    rw [fails_bind, diag_props (PublishProperties.read_eq mode) (by decide)]
    refine ⟨fun h => h.elim id ?_, .inl⟩
    rintro ⟨_, _, _, r, h⟩
    rw [getBuf_bind] at h; simp at h
  by_cases hq : q = .AtMostOnce
  · simp only [hq, if_true, pure_bind, ne_eq, not_true, false_and, if_false]
    exact hsec _
  · simp only [hq, if_false, ne_eq, not_false_iff, true_and]
    refine Diag.bind diag_u16 reps_u16 fun id b e => ?_
    rw [fails_ite, fails_throwE, hsec]

theorem Publish.diag (hh : hdr.length = fh.fixed_header_len) :
    FailsAt (Publish.read mode fh) (hdr ++ body) e ↔
      PublishErr mode fh.byte1.toNat body e := by
  rw [Publish.read_eq, fails_qos (bits_publish _).1 (by omega)]
  refine or_congr_right ?_
  simp only [fails_hdr hh]
  constructor
  · rintro ⟨q, hq, h⟩
    rw [publishRest_diag] at h
    cases q
    · exact .inl ⟨hq.symm, h⟩
    · exact .inr ⟨.inl hq.symm, h⟩
    · exact .inr ⟨.inr hq.symm, h⟩
  · rintro (⟨hq, h⟩ | ⟨hq | hq, h⟩)
    · exact ⟨.AtMostOnce, hq.symm, (publishRest_diag _ _ _ _).2 h⟩
    · exact ⟨.AtLeastOnce, hq.symm, (publishRest_diag _ _ _ _).2 h⟩
    · exact ⟨.ExactlyOnce, hq.symm, (publishRest_diag _ _ _ _).2 h⟩

theorem LastWill.diag (x : UInt8) : Diag (LastWill.read mode x) (WillErr mode x.toNat) := by
  obtain ⟨-, e2, e3, e4, e5, -, -⟩ := bits_connect x
  intro b e
  unfold LastWill.read
  simp only [LastWillProperties.read_eq, bind_assoc, pure_bind]
  rw [fails_ite, fails_ite, fails_throwE, e2]
  refine or_congr ?_ ?_
  · refine and_congr_right fun _ => ?_
    rw [ne_eq, e3]
    exact ⟨fun h => h.elim id fun h => absurd h.2 fails_pure, .inl⟩
  · refine and_congr (by omega) ?_
    refine Diag.bind (diag_sec (by decide)) reps_sec (fun _ => Diag.bind diag_bytes reps_bytes
      fun _ => Diag.bind diag_bytes reps_bytes fun _ b e => ?_) b e
    rw [fails_qos e4 (by omega)]
    exact ⟨fun h => h.elim id fun ⟨_, _, h⟩ => absurd h fails_pure, .inl⟩

theorem flag_diag {x m : UInt8} {n : Nat} (hm : x &&& m = 0 ↔ n = 0) (hn : n < 2) :
    Diag (if x &&& m = 0 then (pure [] : M MqttString) else read_mqtt_string mode)
      (FlagErr mode n) := by
  intro b e
  rw [fails_ite, hm, diag_text]
  constructor
  · rintro (⟨_, h⟩ | ⟨h, h'⟩)
    · exact absurd h fails_pure
    · exact ⟨by omega, h'⟩
  · rintro ⟨h, h'⟩
    exact .inr ⟨by omega, h'⟩

theorem Login.diag (x : UInt8) : Diag (Login.read mode x)
    (Field (FlagField mode (x.toNat / 128 % 2)) (FlagErr mode (x.toNat / 128 % 2)) fun _ =>
      FlagErr mode (x.toNat / 64 % 2)) := by
  obtain ⟨-, -, -, -, -, e6, e7⟩ := bits_connect x
  unfold Login.read
  refine Diag.bind (flag_diag e6 (by omega)) (fun _ _ _ => flagField_ok e6 (by omega)) fun u => ?_
  intro b e
  rw [fails_bind, flag_diag e7 (by omega)]
  refine ⟨fun h => h.elim id ?_, .inl⟩
  rintro ⟨_, _, _, h⟩
  rw [fails_ite] at h
  exact h.elim (fun h => absurd h.2 fails_pure) (fun h => absurd h.2 fails_pure)

theorem Connect.diag (hh : hdr.length = fh.fixed_header_len) :
    FailsAt (Connect.read mode fh) (hdr ++ body) e ↔ ConnectErr mode body e := by
  refine (fails_hdr hh).trans ?_
  simp only [ConnectProperties.read_eq, bind_assoc, pure_bind]
  refine Diag.bind diag_text reps_text (fun name => Diag.bind diag_u8 reps_u8
    fun level b e => ?_) body e
  have hrest : ∀ {α : Type} (f : UInt8 → UInt16 → Option (List Property) → Bytes →
      Option LastWill → Option Login → α), Diag (read_u8 >>= fun fl => read_u16 >>= fun ka =>
      gRead mode ConnectProperties.allowed >>= fun o => read_mqtt_string mode >>= fun id =>
      LastWill.read mode fl >>= fun w => Login.read mode fl >>= fun l => pure (f fl ka o id w l))
      (Field ByteRep (NumErr 1) (fun flags => Field TwoRep (NumErr 2) fun _ =>
        Field (PropSec mode ConnectProperties.allowed) (SecErr mode ConnectProperties.allowed)
          fun _ => Field (TextRep mode) (TextErr mode) fun _ =>
            Field (WillRep mode flags.toNat) (WillErr mode flags.toNat) fun _ =>
              Field (FlagField mode (flags.toNat / 128 % 2)) (FlagErr mode (flags.toNat / 128 % 2))
                fun _ => FlagErr mode (flags.toNat / 64 % 2))) := fun f =>
    Diag.bind diag_u8 reps_u8 fun fl => Diag.bind diag_u16 reps_u16 fun ka =>
      Diag.bind (diag_sec (by decide)) reps_sec fun o => Diag.bind diag_text reps_text fun id =>
        Diag.bind (LastWill.diag fl) (fun _ _ _ => LastWill.read_ok) fun w =>
          Diag.bind_pure (Login.diag fl)
  rw [fails_ite, fails_throwE, fails_ite, fails_throwE, hrest]
  show _ ↔ (name ≠ Connect.protocolName ∧ _) ∨ (name = Connect.protocolName ∧ _ ∧ _) ∨
    (name = Connect.protocolName ∧ _ ∧ _)
  refine or_congr_right ⟨?_, ?_⟩
  · rintro ⟨h, h' | h'⟩
    · exact .inl ⟨Classical.not_not.1 h, h'⟩
    · exact .inr ⟨Classical.not_not.1 h, Classical.not_not.1 h'.1, h'.2⟩
  · rintro (⟨h, h'⟩ | ⟨h, h1, h'⟩)
    · exact ⟨Classical.not_not.2 h, .inl h'⟩
    · exact ⟨Classical.not_not.2 h, .inr ⟨Classical.not_not.2 h1, h'⟩⟩

/-! ### Frames -/

theorem onOwned_fails {α β : Type} {b : Bytes} {m : M α} {f : α → β} {r : Bytes} {e : Err} :
    ((onOwned b m >>= fun a => pure (f a)) r).1 = .err e ↔ FailsAt m b e := by
  rw [onOwned_bind]
  unfold FailsAt
  rcases h : m b with ⟨o, b'⟩
  cases o <;> simp

theorem readBody_err {ty : PacketType} (hh : hdr.length = fh.fixed_header_len)
    (hr : fh.remaining_len = body.length) (ht : fh.packet_type = .ok ty) (r : Bytes) :
    (Packet.readBody mode fh ty (hdr ++ body) r).1 = .err e ↔ BodyErr mode fh.byte1.toNat body e := by
  rw [packet_type_ok] at ht
  unfold BodyErr
  rw [ht]
  cases ty
  case Connect =>
    exact (onOwned_fails (f := fun a => Packet.Connect a.1 a.2.1 a.2.2)).trans (Connect.diag hh)
  case ConnAck => exact onOwned_fails.trans (ConnAck.diag hh)
  case Publish => exact onOwned_fails.trans (Publish.diag hh)
  case PubAck => exact onOwned_fails.trans (PubAck.diag hh hr)
  case PubRec => exact onOwned_fails.trans (PubRec.diag hh hr)
  case PubRel => exact onOwned_fails.trans (PubRel.diag hh hr)
  case PubComp => exact onOwned_fails.trans (PubComp.diag hh hr)
  case Subscribe => exact onOwned_fails.trans (Subscribe.diag hh)
  case SubAck => exact onOwned_fails.trans (SubAck.diag hh)
  case Unsubscribe => exact onOwned_fails.trans (Unsubscribe.diag hh)
  case UnsubAck => exact onOwned_fails.trans (UnsubAck.diag hh)
  case PingReq => exact ⟨fun h => by simp [Packet.readBody] at h, fun h => False.elim h⟩
  case PingResp => exact ⟨fun h => by simp [Packet.readBody] at h, fun h => False.elim h⟩
  case Disconnect => exact onOwned_fails.trans (Disconnect.diag hh hr ht)

theorem frameOut_diag {b1 : UInt8} {v body : Bytes} {e : Err} :
    frameOut mode b1 v body = .err e ↔ FrameErr mode b1.toNat body e := by
  have hb : (FixedHeader.new b1 v.length body.length).byte1 = b1 := rfl
  unfold frameOut FrameErr
  rcases packet_type_cases (FixedHeader.new b1 v.length body.length) with ⟨ty, ht⟩ | ⟨h0, h1⟩
  · rw [ht, liftOut_ok, pure_bind]
    have ht' := packet_type_ok.1 ht
    rw [hb] at ht'
    have hrange : 1 ≤ b1.toNat / 16 ∧ b1.toNat / 16 ≤ 14 := by rw [ht']; cases ty <;> decide
    have hd : ty = .Disconnect ↔ b1.toNat / 16 = 14 := by rw [ht']; cases ty <;> decide
    by_cases h0 : body.length = 0 ∧ ty ≠ .Disconnect
    · have hnil := List.length_eq_zero_iff.1 h0.1
      have h14 : b1.toNat / 16 ≠ 14 := fun h => h0.2 (hd.2 h)
      rw [if_pos h0]
      subst hnil
      constructor
      · intro h
        right; left
        rw [ht']
        cases ty <;> simp at h ⊢ <;> first | exact ⟨by decide, by decide, h.symm⟩ | (exact absurd rfl h0.2)
      · rintro (⟨h, -⟩ | ⟨_, h, -, rfl⟩ | ⟨h, -⟩)
        · omega
        · rw [ht'] at h
          cases ty <;> first | rfl | (exfalso; revert h; decide)
        · rcases h with h | h
          · exact absurd rfl h
          · exact absurd h h14
    · rw [if_neg h0]
      have := readBody_err (mode := mode) (e := e) (hdr := b1 :: v) (body := body)
        (fh := FixedHeader.new b1 v.length body.length) rfl rfl ht []
      rw [List.cons_append] at this
      rw [this, hb]
      have hne : body ≠ [] ∨ b1.toNat / 16 = 14 := by
        by_cases hz : body = []
        · right
          exact hd.1 (Classical.byContradiction fun h => h0 ⟨by simp [hz], h⟩)
        · exact .inl hz
      constructor
      · intro h; exact .inr (.inr ⟨hne, h⟩)
      · rintro (⟨h, -⟩ | ⟨_, h, hz, -⟩ | ⟨_, h⟩)
        · omega
        · rcases hne with hne | hne
          · exact absurd hz hne
          · omega
        · exact h
  · rw [hb] at h0
    rw [h1]
    simp only [liftOut_err, throwE_bind, throwE_apply, Out.err.injEq]
    have hs : b1 >>> 4 = UInt8.ofNat (b1.toNat / 16) := by
      rw [← (bits_disconnect b1).1, UInt8.ofNat_toNat]
    rw [hb, hs]
    constructor
    · intro h; exact .inl ⟨h0, h.symm⟩
    · rintro (⟨-, h⟩ | ⟨_, _, _, _⟩ | ⟨_, h⟩)
      · exact h.symm
      · omega
      · exfalso
        unfold BodyErr at h
        rcases h0 with h0 | h0 <;> rw [h0] at h <;> exact h

theorem read_err_iff {max : Option Nat} {b r : Bytes} {e : Err} :
    Packet.read mode max b = (.err e, r) ↔
      (r = b ∧ HeadErr max b e) ∨
      ∃ b1 v body, b = b1 :: (v ++ (body ++ r)) ∧ VarintRep v body.length ∧
        Admits max body.length ∧ FrameErr mode b1.toNat body e := by
  have hadm : ∀ n, Admits max n ↔ ¬ OverLimit max n := fun n => not_overLimit.symm
  constructor
  · intro h
    cases read_cases mode max b with
    | tooShort hb hr =>
      rw [hr] at h; cases h
      exact .inl ⟨rfl, .inl ⟨hb, rfl⟩⟩
    | openHeader b1 w hb h1 h3 hw hr =>
      rw [hr] at h; cases h
      exact .inl ⟨rfl, .inr (.inl ⟨b1, w, hb, fun h => by rw [h] at h1; simp at h1,
        .inl ⟨h3, hw, rfl⟩⟩)⟩
    | badHeader b1 w r' hb h4 hw hr =>
      rw [hr] at h; cases h
      exact .inl ⟨rfl, .inr (.inl ⟨b1, _, hb, fun h => by
        rw [(List.append_eq_nil_iff.1 h).1] at h4; simp at h4, .inr ⟨w, r', rfl, h4, hw, rfl⟩⟩)⟩
    | overLimit b1 v r' n m hb hv hm hn hr =>
      rw [hr] at h; cases h
      exact .inl ⟨rfl, .inr (.inr ⟨b1, v, n, r', hb, hv, .inl ⟨m, hm, hn, rfl⟩⟩)⟩
    | openBody b1 v r' n hb hv hm hn hr =>
      rw [hr] at h; cases h
      exact .inl ⟨rfl, .inr (.inr ⟨b1, v, n, r', hb, hv, .inr ⟨(hadm n).2 hm, hn, rfl⟩⟩)⟩
    | frame b1 v body r' hb hv hm hr =>
      rw [hr] at h
      obtain ⟨h1, h2⟩ := Prod.mk.inj h
      subst h2
      exact .inr ⟨b1, v, body, hb, hv, (hadm _).2 hm, frameOut_diag.1 h1⟩
  · rintro (⟨rfl, h⟩ | ⟨b1, v, body, rfl, hv, hm, h⟩)
    · rcases h with ⟨hb, rfl⟩ | ⟨b1, w, rfl, hne, h⟩ | ⟨b1, v, n, s, rfl, hv, h⟩
      · exact read_check_err (check_err (parse_short hb))
      · rcases h with ⟨h3, hw, rfl⟩ | ⟨w, r, rfl, h4, hw, rfl⟩
        · exact read_check_err (check_err (parse_cont (List.length_pos_iff.2 hne) h3 hw))
        · exact read_check_err (check_err (parse_long r h4 hw))
      · rcases h with ⟨m, rfl, hn, rfl⟩ | ⟨hm, hn, rfl⟩
        · exact read_check_err (check_over (parse_rep s hv) hn)
        · refine read_check_err ?_
          rw [check_within (parse_rep s hv) ((hadm n).1 hm), if_pos]
          · simp [FixedHeader.new, FixedHeader.frame_length]; omega
          · simp [FixedHeader.new, FixedHeader.frame_length]; omega
    · rw [read_frame hv ((hadm _).1 hm), frameOut_diag.2 h]

end Mqtt
