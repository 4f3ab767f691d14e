import Verif.Proofs.ReadAck
/-
Typed readers on a complete frame: SUBSCRIBE, SUBACK, UNSUBSCRIBE, UNSUBACK.
-/
set_option linter.unusedSimpArgs false

namespace Mqtt

open Spec

variable {mode : StrMode} {α : Type}

/-- The `while bytes.has_remaining()` loops. -/
def gSeq (one : M α) : (fuel : Nat) → List α → M (List α)
  | 0, _ => fun b => (.diverge, b)
  | fuel + 1, acc => do
    let bytes ← getBuf
    if bytes.isEmpty then pure acc
    else do
      let x ← one
      gSeq one fuel (acc ++ [x])

theorem gSeq_nil (one : M α) (fuel : Nat) (acc : List α) :
    gSeq one (fuel + 1) acc [] = (.ok acc, []) := rfl

theorem gSeq_cons (one : M α) (fuel : Nat) (acc : List α) {b : Bytes} (h : b ≠ []) :
    gSeq one (fuel + 1) acc b = (one >>= fun x => gSeq one fuel (acc ++ [x])) b := by
  rw [gSeq, getBuf_bind, if_neg (by simpa using h)]

theorem gSeq_ok {one : M α} {R : α → Bytes → Prop}
    (hone : ∀ {b r x}, one b = (.ok x, r) ↔ ∃ w, b = w ++ r ∧ R x w)
    (hR : ∀ {x w}, R x w → 1 ≤ w.length) :
    ∀ (fuel : Nat) {acc l : List α} {b r : Bytes}, b.length < fuel →
    (gSeq one fuel acc b = (.ok l, r) ↔ r = [] ∧ ∃ xs, l = acc ++ xs ∧ SeqRep R xs b) := by
  intro fuel
  induction fuel with
  | zero => intro _ _ b _ h; exact absurd h (by omega)
  | succ fuel ih =>
    intro acc l b r hb
    by_cases hn : b = []
    · subst hn
      rw [gSeq_nil]
      constructor
      · intro h
        simp only [Prod.mk.injEq, Out.ok.injEq] at h
        exact ⟨h.2.symm, [], by simp [h.1], .nil⟩
      · rintro ⟨rfl, xs, rfl, hs⟩
        generalize hw : ([] : Bytes) = w at hs
        cases hs with
        | nil => simp
        | cons hx _ =>
          have := hR hx
          have := congrArg List.length hw
          simp at this; omega
    · rw [gSeq_cons _ _ _ hn, M.bind_eq_ok]
      constructor
      · rintro ⟨x, b1, h1, h2⟩
        obtain ⟨w, rfl, hw⟩ := hone.1 h1
        have := hR hw
        obtain ⟨rfl, xs, rfl, hs⟩ := (ih (by simp at hb; omega)).1 h2
        exact ⟨rfl, x :: xs, by simp, .cons hw hs⟩
      · rintro ⟨rfl, xs, rfl, hs⟩
        cases hs with
        | nil => exact absurd rfl hn
        | @cons x w xs ws hx hs =>
          have := hR hx
          refine ⟨x, ws, hone.2 ⟨w, rfl, hx⟩, (ih (by simp at hb; omega)).2 ⟨rfl, xs, by simp, hs⟩⟩

theorem gSeq_good {one : M α} (hg : Good one)
    (hp : ∀ {b r x}, one b = (.ok x, r) → r.length < b.length) :
    ∀ (fuel : Nat) (acc : List α) (b : Bytes), b.length < fuel →
    (gSeq one fuel acc b).1 ≠ .panic ∧ (gSeq one fuel acc b).1 ≠ .diverge ∧
      (gSeq one fuel acc b).2 <:+ b := by
  intro fuel
  induction fuel with
  | zero => intro _ b h; exact absurd h (by omega)
  | succ fuel ih =>
    intro acc b hb
    by_cases hn : b = []
    · subst hn; simp [gSeq_nil]
    · rw [gSeq_cons _ _ _ hn]
      obtain ⟨h1, h2, h3⟩ := hg b
      rw [M.bind_apply]
      rcases hm : one b with ⟨o, b'⟩
      rw [hm] at h1 h2 h3
      cases o with
      | ok x =>
        have := hp hm
        obtain ⟨a1, a2, a3⟩ := ih (acc ++ [x]) b' (by omega)
        exact ⟨a1, a2, a3.trans h3⟩
      | err e => simpa using h3
      | panic => simp at h1
      | diverge => simp at h2

theorem gSeq_good' {one : M α} (hg : Good one)
    (hp : ∀ {b r x}, one b = (.ok x, r) → r.length < b.length) :
    Good (fun b => gSeq one (b.length + 1) [] b) :=
  fun b => gSeq_good hg hp (b.length + 1) [] b (by omega)

/-- A list of one-byte items. -/
theorem seqRep_map {f : α → UInt8} {xs : List α} {w : Bytes} :
    SeqRep (fun x w => w = [f x]) xs w ↔ w = xs.map f := by
  constructor
  · intro h
    induction h with
    | nil => rfl
    | cons hx _ ih => rw [hx, ih]; rfl
  · rintro rfl
    induction xs with
    | nil => exact .nil
    | cons x xs ih => exact .cons (w := [f x]) rfl ih

/-- Rewriting of a loop under its frame. -/
theorem bind_getBuf_congr {β : Type} {f g : Bytes → M β} {b : Bytes} (h : f b b = g b b) :
    (getBuf >>= f) b = (getBuf >>= g) b := by rw [getBuf_bind, getBuf_bind, h]

/-! ### SubAck -/

theorem SubAck.readLoop_eq (fuel : Nat) : ∀ acc, SubAck.readLoop fuel acc =
    gSeq (read_u8 >>= fun c => liftOut (SubscribeReasonCode.ofU8 c)) fuel acc := by
  induction fuel with
  | zero => intro _; rfl
  | succ n ih => intro acc; simp only [SubAck.readLoop, gSeq, bind_assoc, ih]

theorem SubAck.one_ok {b r : Bytes} {x : SubscribeReasonCode} :
    (read_u8 >>= fun c => liftOut (SubscribeReasonCode.ofU8 c)) b = (.ok x, r) ↔
      ∃ w, b = w ++ r ∧ w = [subAckCode x] := by
  rw [inv_u8]
  constructor
  · rintro ⟨c, b', rfl, h⟩
    obtain ⟨h1, rfl⟩ := liftOut_iff.1 h
    rw [SubscribeReasonCode.ofU8_ok] at h1
    exact ⟨_, rfl, by rw [h1]⟩
  · rintro ⟨w, rfl, rfl⟩
    exact ⟨_, _, rfl, liftOut_iff.2 ⟨SubscribeReasonCode.ofU8_code x, rfl⟩⟩

theorem SubAck.read_iff {fh : FixedHeader} {hdr body : Bytes} {p : SubAck}
    (hh : hdr.length = fh.fixed_header_len) :
    (∃ r, SubAck.read mode fh (hdr ++ body) = (.ok p, r)) ↔
      BodyRep mode fh.byte1.toNat body (.SubAck p) := by
  unfold SubAck.read
  rw [M.bind_ok (advance_hdr hh)]
  simp only [SubAck.readLoop_eq]
  constructor
  · rintro ⟨r, h⟩
    replace h := inv_u16.1 h
    obtain ⟨pkid, b1, rfl, h⟩ := h
    replace h := (inv_props (SubAckProperties.read_eq mode)).1 h
    obtain ⟨ps, s, b2, rfl, hs, h⟩ := h
    rw [getBuf_bind] at h
    by_cases hn : b2.isEmpty = true
    · rw [if_pos hn] at h; simp at h
    · rw [if_neg hn, M.bind_eq_ok] at h
      obtain ⟨l, b3, h1, h9⟩ := h
      obtain ⟨rfl, xs, rfl, hx⟩ := (gSeq_ok SubAck.one_ok (by simp +contextual) _ (by omega)).1 h1
      rw [seqRep_map] at hx
      subst hx
      obtain ⟨rfl, -⟩ := pure_ok.1 h9
      refine ⟨by simpa using hn, ps, s, by simp, hs, rfl⟩
  · rintro ⟨hn, ps, s, rfl, hs, ho⟩
    refine ⟨[], ?_⟩
    rw [List.append_assoc]
    refine inv_u16.2 ⟨_, _, rfl, ?_⟩
    refine (inv_props (SubAckProperties.read_eq mode)).2 ⟨ps, s, _, rfl, hs, ?_⟩
    rw [getBuf_bind, if_neg (by simpa using hn), M.bind_eq_ok]
    refine ⟨_, _, (gSeq_ok SubAck.one_ok (by simp +contextual) _ (by omega)).2
      ⟨rfl, _, rfl, seqRep_map.2 rfl⟩, ?_⟩
    rw [← ho]; rfl

theorem SubAck.read_good {fh : FixedHeader} {hdr body : Bytes}
    (hh : hdr.length = fh.fixed_header_len) :
    ∃ m : M SubAck, Good m ∧ SubAck.read mode fh (hdr ++ body) = m body := by
  refine ⟨_, ?_, M.bind_ok (advance_hdr hh)⟩
  simp only [SubAck.readLoop_eq]
  refine Good.bind Good.read_u16 fun _ => Good.bind (props_good (SubAckProperties.read_eq mode))
    fun _ b => ?_
  rw [getBuf_bind]
  by_cases hn : b.isEmpty = true
  · rw [if_pos hn]; exact Good.throwE _ b
  · rw [if_neg hn]
    exact Good.bind (gSeq_good' (Good.bind Good.read_u8 fun _ => Good.SubscribeReasonCode _)
      (fun h => by obtain ⟨w, rfl, rfl⟩ := SubAck.one_ok.1 h; simp)) (fun _ => Good.pure _) b

/-! ### UnsubAck -/

theorem UnsubAck.readLoop_eq (fuel : Nat) : ∀ acc, UnsubAck.readLoop fuel acc =
    gSeq (read_u8 >>= fun c => liftOut (UnsubAckReason.ofU8 c)) fuel acc := by
  induction fuel with
  | zero => intro _; rfl
  | succ n ih => intro acc; simp only [UnsubAck.readLoop, gSeq, bind_assoc, ih]

theorem UnsubAck.one_ok {b r : Bytes} {x : UnsubAckReason} :
    (read_u8 >>= fun c => liftOut (UnsubAckReason.ofU8 c)) b = (.ok x, r) ↔
      ∃ w, b = w ++ r ∧ w = [unsubAckCode x] := by
  rw [inv_u8]
  constructor
  · rintro ⟨c, b', rfl, h⟩
    obtain ⟨h1, rfl⟩ := liftOut_iff.1 h
    rw [UnsubAckReason.ofU8_ok] at h1
    exact ⟨_, rfl, by rw [h1]⟩
  · rintro ⟨w, rfl, rfl⟩
    exact ⟨_, _, rfl, liftOut_iff.2 ⟨UnsubAckReason.ofU8_code x, rfl⟩⟩

theorem UnsubAck.read_iff {fh : FixedHeader} {hdr body : Bytes} {p : UnsubAck}
    (hh : hdr.length = fh.fixed_header_len) :
    (∃ r, UnsubAck.read mode fh (hdr ++ body) = (.ok p, r)) ↔
      BodyRep mode fh.byte1.toNat body (.UnsubAck p) := by
  unfold UnsubAck.read
  rw [M.bind_ok (advance_hdr hh)]
  simp only [UnsubAck.readLoop_eq]
  constructor
  · rintro ⟨r, h⟩
    replace h := inv_u16.1 h
    obtain ⟨pkid, b1, rfl, h⟩ := h
    replace h := (inv_props (UnsubAckProperties.read_eq mode)).1 h
    obtain ⟨ps, s, b2, rfl, hs, h⟩ := h
    rw [getBuf_bind] at h
    by_cases hn : b2.isEmpty = true
    · rw [if_pos hn] at h; simp at h
    · rw [if_neg hn, M.bind_eq_ok] at h
      obtain ⟨l, b3, h1, h9⟩ := h
      obtain ⟨rfl, xs, rfl, hx⟩ := (gSeq_ok UnsubAck.one_ok (by simp +contextual) _ (by omega)).1 h1
      rw [seqRep_map] at hx
      subst hx
      obtain ⟨rfl, -⟩ := pure_ok.1 h9
      refine ⟨by simpa using hn, ps, s, by simp, hs, rfl⟩
  · rintro ⟨hn, ps, s, rfl, hs, ho⟩
    refine ⟨[], ?_⟩
    rw [List.append_assoc]
    refine inv_u16.2 ⟨_, _, rfl, ?_⟩
    refine (inv_props (UnsubAckProperties.read_eq mode)).2 ⟨ps, s, _, rfl, hs, ?_⟩
    rw [getBuf_bind, if_neg (by simpa using hn), M.bind_eq_ok]
    refine ⟨_, _, (gSeq_ok UnsubAck.one_ok (by simp +contextual) _ (by omega)).2
      ⟨rfl, _, rfl, seqRep_map.2 rfl⟩, ?_⟩
    rw [← ho]; rfl

theorem UnsubAck.read_good {fh : FixedHeader} {hdr body : Bytes}
    (hh : hdr.length = fh.fixed_header_len) :
    ∃ m : M UnsubAck, Good m ∧ UnsubAck.read mode fh (hdr ++ body) = m body := by
  refine ⟨_, ?_, M.bind_ok (advance_hdr hh)⟩
  simp only [UnsubAck.readLoop_eq]
  refine Good.bind Good.read_u16 fun _ => Good.bind (props_good (UnsubAckProperties.read_eq mode))
    fun _ b => ?_
  rw [getBuf_bind]
  by_cases hn : b.isEmpty = true
  · rw [if_pos hn]; exact Good.throwE _ b
  · rw [if_neg hn]
    exact Good.bind (gSeq_good' (Good.bind Good.read_u8 fun _ => Good.UnsubAckReason _)
      (fun h => by obtain ⟨w, rfl, rfl⟩ := UnsubAck.one_ok.1 h; simp)) (fun _ => Good.pure _) b

/-! ### Unsubscribe -/

theorem Unsubscribe.readLoop_eq (fuel : Nat) : ∀ acc, Unsubscribe.readLoop mode fuel acc =
    gSeq (read_mqtt_string mode) fuel acc := by
  induction fuel with
  | zero => intro _; rfl
  | succ n ih => intro acc; simp only [Unsubscribe.readLoop, gSeq, bind_assoc, ih]

theorem Unsubscribe.one_ok {b r x : Bytes} :
    read_mqtt_string mode b = (.ok x, r) ↔ ∃ w, b = w ++ r ∧ TextField mode x ∧ w = str x := by
  rw [read_mqtt_string_ok]
  constructor
  · rintro ⟨rfl, h⟩; exact ⟨_, rfl, h, rfl⟩
  · rintro ⟨w, rfl, h, rfl⟩; exact ⟨rfl, h⟩

theorem Unsubscribe.one_pos {x w : Bytes} (h : TextField mode x ∧ w = str x) : 1 ≤ w.length := by
  rw [h.2]; simp; omega

theorem Unsubscribe.read_iff {fh : FixedHeader} {hdr body : Bytes} {p : Unsubscribe}
    (hh : hdr.length = fh.fixed_header_len) :
    (∃ r, Unsubscribe.read mode fh (hdr ++ body) = (.ok p, r)) ↔
      BodyRep mode fh.byte1.toNat body (.Unsubscribe p) := by
  unfold Unsubscribe.read
  rw [M.bind_ok (advance_hdr hh)]
  simp only [Unsubscribe.readLoop_eq]
  constructor
  · rintro ⟨r, h⟩
    replace h := inv_u16.1 h
    obtain ⟨pkid, b1, rfl, h⟩ := h
    replace h := (inv_props (UnsubscribeProperties.read_eq mode)).1 h
    obtain ⟨ps, s, b2, rfl, hs, h⟩ := h
    rw [getBuf_bind, M.bind_eq_ok] at h
    obtain ⟨l, b3, h1, h9⟩ := h
    obtain ⟨rfl, xs, rfl, hx⟩ :=
      (gSeq_ok Unsubscribe.one_ok Unsubscribe.one_pos _ (by omega)).1 h1
    obtain ⟨rfl, -⟩ := pure_ok.1 h9
    refine ⟨ps, s, b2, by simp, hs, rfl, hx⟩
  · rintro ⟨ps, s, w, rfl, hs, ho, hx⟩
    refine ⟨[], ?_⟩
    rw [List.append_assoc]
    refine inv_u16.2 ⟨_, _, rfl, ?_⟩
    refine (inv_props (UnsubscribeProperties.read_eq mode)).2 ⟨ps, s, _, rfl, hs, ?_⟩
    rw [getBuf_bind, M.bind_eq_ok]
    refine ⟨_, _, (gSeq_ok Unsubscribe.one_ok Unsubscribe.one_pos _ (by omega)).2
      ⟨rfl, _, rfl, hx⟩, ?_⟩
    rw [← ho]; rfl

theorem Unsubscribe.read_good {fh : FixedHeader} {hdr body : Bytes}
    (hh : hdr.length = fh.fixed_header_len) :
    ∃ m : M Unsubscribe, Good m ∧ Unsubscribe.read mode fh (hdr ++ body) = m body := by
  refine ⟨_, ?_, M.bind_ok (advance_hdr hh)⟩
  simp only [Unsubscribe.readLoop_eq]
  refine Good.bind Good.read_u16 fun _ => Good.bind
    (props_good (UnsubscribeProperties.read_eq mode)) fun _ b => ?_
  rw [getBuf_bind]
  exact Good.bind (gSeq_good' (Good.read_mqtt_string mode)
    (fun h => by obtain ⟨w, rfl, -, rfl⟩ := Unsubscribe.one_ok.1 h; simp; omega))
    (fun _ => Good.pure _) b

/-! ### Subscribe -/

/-- The fields decoded from the options byte. -/
def optRest (o : UInt8) : Out (QoS × Bool × Bool × RetainForwardRule) :=
  match (((o >>> 4) &&& 0b00000011 : UInt8)).toNat with
  | 0 => match qos (o &&& 0b00000011) with
    | some q => .ok (q, ((o >>> 2) &&& 1) != 0, ((o >>> 3) &&& 1) != 0, .OnEverySubscribe)
    | none => .err (.InvalidQoS (o &&& 0b00000011))
  | 1 => match qos (o &&& 0b00000011) with
    | some q => .ok (q, ((o >>> 2) &&& 1) != 0, ((o >>> 3) &&& 1) != 0, .OnNewSubscribe)
    | none => .err (.InvalidQoS (o &&& 0b00000011))
  | 2 => match qos (o &&& 0b00000011) with
    | some q => .ok (q, ((o >>> 2) &&& 1) != 0, ((o >>> 3) &&& 1) != 0, .Never)
    | none => .err (.InvalidQoS (o &&& 0b00000011))
  | _ => .err (.InvalidRetainForwardRule ((o >>> 4) &&& 0b00000011))

theorem optRest_spec (o : UInt8) :
    (∃ q nl pr r, optRest o = .ok (q, nl, pr, r) ∧
      ∀ path, o.toNat % 64 = filterOptions ⟨path, q, nl, pr, r⟩) ∨
    (optRest o = .err (.InvalidRetainForwardRule 3) ∧ o.toNat / 16 % 4 = 3) ∨
    (optRest o = .err (.InvalidQoS 3) ∧ o.toNat % 4 = 3 ∧ o.toNat / 16 % 4 ≠ 3) := by
  have key := u8_all (P := fun o => (match optRest o with
      | .ok (q, nl, pr, r) => decide (o.toNat % 64 = filterOptions ⟨[], q, nl, pr, r⟩)
      | .err e => (decide (e = .InvalidRetainForwardRule 3) && decide (o.toNat / 16 % 4 = 3)) ||
        (decide (e = .InvalidQoS 3) && decide (o.toNat % 4 = 3) && decide (o.toNat / 16 % 4 ≠ 3))
      | _ => false) = true) (by decide +kernel) o
  cases h : optRest o with
  | ok x =>
    obtain ⟨q, nl, pr, r⟩ := x
    rw [h] at key
    exact .inl ⟨q, nl, pr, r, rfl, fun path => of_decide_eq_true key⟩
  | err e =>
    rw [h] at key
    simp only [Bool.or_eq_true, Bool.and_eq_true, decide_eq_true_eq] at key
    rcases key with ⟨rfl, h1⟩ | ⟨⟨rfl, h1⟩, h2⟩
    · exact .inr (.inl ⟨rfl, h1⟩)
    · exact .inr (.inr ⟨rfl, h1, h2⟩)
  | panic => rw [h] at key; simp at key
  | diverge => rw [h] at key; simp at key

theorem filterOptions_inj {f g : Filter} (h : filterOptions f = filterOptions g)
    (hp : f.path = g.path) : f = g := by
  obtain ⟨p, q, nl, pr, r⟩ := f
  obtain ⟨p', q', nl', pr', r'⟩ := g
  simp only at hp
  subst hp
  have hb : ∀ b, bit b ≤ 1 := by decide
  have hq : ∀ q, qosNum q ≤ 2 := by intro q; cases q <;> decide
  have hbi : ∀ {b b'}, bit b = bit b' → b = b' := by decide
  have hqi : ∀ {q q'}, qosNum q = qosNum q' → q = q' := by
    intro q q'; cases q <;> cases q' <;> simp [qosNum]
  simp only [filterOptions] at h
  have h1 := hb nl; have h2 := hb nl'; have h3 := hb pr; have h4 := hb pr'
  have h5 := hq q; have h6 := hq q'
  have e1 : qosNum q = qosNum q' := by omega
  have e2 : bit nl = bit nl' := by omega
  have e3 : bit pr = bit pr' := by omega
  obtain rfl := hqi e1
  obtain rfl := hbi e2
  obtain rfl := hbi e3
  cases r <;> cases r' <;> first | rfl | (simp at h)

theorem filterOptions_lt (f : Filter) : filterOptions f < 64 := by
  obtain ⟨p, q, nl, pr, r⟩ := f
  cases q <;> cases nl <;> cases pr <;> cases r <;> simp [filterOptions, qosNum, bit]

theorem Filter.readOne_eq : Filter.readOne mode = read_mqtt_string mode >>= fun path =>
    read_u8 >>= fun o => liftOut (optRest o) >>= fun x =>
    pure ⟨path, x.1, x.2.1, x.2.2.1, x.2.2.2⟩ := by
  unfold Filter.readOne
  congr 1; funext path; congr 1; funext o
  unfold optRest qosOrErr
  funext b
  simp only
  generalize ((o >>> 4 &&& 3 : UInt8)).toNat = n
  rcases n with _ | _ | _ | n <;> simp only [] <;> cases Mqtt.qos (o &&& 3) <;> rfl

theorem Filter.one_ok {b r : Bytes} {f : Filter} :
    Filter.readOne mode b = (.ok f, r) ↔ ∃ w, b = w ++ r ∧ FilterRep mode f w := by
  rw [Filter.readOne_eq, inv_str]
  constructor
  · rintro ⟨path, b1, rfl, ht, h⟩
    replace h := inv_u8.1 h
    obtain ⟨o, b2, rfl, h⟩ := h
    replace h := inv_lift.1 h
    obtain ⟨⟨q, nl, pr, rr⟩, h1, h⟩ := h
    obtain ⟨rfl, rfl⟩ := pure_ok.1 h
    refine ⟨str path ++ [o], by simp, ht, o, ?_, rfl⟩
    rcases optRest_spec o with ⟨q', nl', pr', rr', h2, h3⟩ | ⟨h2, -⟩ | ⟨h2, -⟩
    · rw [h1] at h2; cases h2; exact h3 path
    · rw [h1] at h2; cases h2
    · rw [h1] at h2; cases h2
  · rintro ⟨w, rfl, ht, o, ho, rfl⟩
    refine ⟨f.path, [o] ++ r, by simp, ht, inv_u8.2 ⟨o, r, rfl, ?_⟩⟩
    rcases optRest_spec o with ⟨q, nl, pr, rr, h2, h3⟩ | ⟨h2, h3⟩ | ⟨h2, h3, -⟩
    · refine inv_lift.2 ⟨_, h2, ?_⟩
      have := filterOptions_inj (f := f) (ho.symm.trans (h3 f.path)) rfl
      exact pure_ok.2 ⟨this, rfl⟩
    all_goals
      exfalso
      obtain ⟨p, q, nl, pr, rr⟩ := f
      cases q <;> cases nl <;> cases pr <;> cases rr <;> simp [filterOptions, qosNum, bit] at ho <;>
        omega

theorem Filter.one_pos {f : Filter} {w : Bytes} (h : FilterRep mode f w) : 1 ≤ w.length := by
  obtain ⟨_, o, _, rfl⟩ := h; simp

theorem Filter.readLoop_eq (fuel : Nat) : ∀ acc, Filter.readLoop mode fuel acc =
    gSeq (Filter.readOne mode) fuel acc := by
  induction fuel with
  | zero => intro _; rfl
  | succ n ih => intro acc; simp only [Filter.readLoop, gSeq, bind_assoc, ih]

theorem Filter.good_readOne : Good (Filter.readOne mode) := by
  rw [Filter.readOne_eq]
  refine Good.bind (Good.read_mqtt_string mode) fun _ => Good.bind Good.read_u8 fun o =>
    Good.bind ?_ fun _ => Good.pure _
  rcases optRest_spec o with ⟨q, nl, pr, rr, h, -⟩ | ⟨h, -⟩ | ⟨h, -⟩ <;> rw [h] <;>
    exact Good.liftOut (by simp) (by simp)

theorem Subscribe.read_iff {fh : FixedHeader} {hdr body : Bytes} {p : Subscribe}
    (hh : hdr.length = fh.fixed_header_len) :
    (∃ r, Subscribe.read mode fh (hdr ++ body) = (.ok p, r)) ↔
      BodyRep mode fh.byte1.toNat body (.Subscribe p) := by
  unfold Subscribe.read Filter.read
  rw [M.bind_ok (advance_hdr hh)]
  simp only [Filter.readLoop_eq]
  constructor
  · rintro ⟨r, h⟩
    replace h := inv_u16.1 h
    obtain ⟨pkid, b1, rfl, h⟩ := h
    replace h := (inv_props (SubscribeProperties.read_eq mode)).1 h
    obtain ⟨ps, s, b2, rfl, hs, h⟩ := h
    replace h := M.bind_eq_ok.1 h
    obtain ⟨l, b3, h1, h2⟩ := h
    rw [getBuf_bind] at h1
    obtain ⟨rfl, xs, rfl, hx⟩ := (gSeq_ok Filter.one_ok Filter.one_pos _ (by omega)).1 h1
    cases l with
    | nil => simp at h2
    | cons x xs =>
      simp only [List.length_cons] at h2
      obtain ⟨rfl, -⟩ := pure_ok.1 h2
      exact ⟨by simp, ps, s, b2, by simp, hs, rfl, hx⟩
  · rintro ⟨hn, ps, s, w, rfl, hs, ho, hx⟩
    refine ⟨[], ?_⟩
    rw [List.append_assoc]
    refine inv_u16.2 ⟨_, _, rfl, ?_⟩
    refine (inv_props (SubscribeProperties.read_eq mode)).2 ⟨ps, s, _, rfl, hs, ?_⟩
    rw [M.bind_eq_ok]
    refine ⟨_, _, (getBuf_bind _ _).trans ((gSeq_ok Filter.one_ok Filter.one_pos _ (by omega)).2
      ⟨rfl, _, rfl, hx⟩), ?_⟩
    obtain ⟨pkid, l, o⟩ := p
    cases l with
    | nil => exact absurd rfl hn
    | cons x xs => simp only at ho; rw [← ho]; rfl

theorem Filter.read_good : Good (Filter.read mode) := by
  unfold Filter.read
  simp only [Filter.readLoop_eq]
  intro b
  rw [getBuf_bind]
  exact gSeq_good' Filter.good_readOne
    (fun h => by obtain ⟨w, rfl, _, o, _, rfl⟩ := Filter.one_ok.1 h; simp; omega) b

theorem Subscribe.read_good {fh : FixedHeader} {hdr body : Bytes}
    (hh : hdr.length = fh.fixed_header_len) :
    ∃ m : M Subscribe, Good m ∧ Subscribe.read mode fh (hdr ++ body) = m body := by
  refine ⟨_, ?_, M.bind_ok (advance_hdr hh)⟩
  refine Good.bind Good.read_u16 fun _ => Good.bind
    (props_good (SubscribeProperties.read_eq mode)) fun _ => Good.bind Filter.read_good fun l => ?_
  · split
    · exact Good.throwE _
    · exact Good.pure _

end Mqtt
