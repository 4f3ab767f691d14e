import Verif.Spec.Once
import Verif.Props.Retry
/-
C85: QoS 2 messages and connections that break.
-/
namespace Props

open Mqtt Spec

/-- The message as the receiver reads it. -/
def arrivals (l : List (Publish × Bool)) : List Publish := l.map fun x => arrival x.1 x.2

def recOf (k : UInt16) : Packet := .PubRec { pkid := k, reason := .Success, properties := none }
def relOf (k : UInt16) : Packet := .PubRel { pkid := k, reason := .Success, properties := none }
def compOf (k : UInt16) : Packet := .PubComp { pkid := k, reason := .Success, properties := none }

theorem rec_survives (mode : StrMode) (max : Option Nat) (hm : Admits max 2) (k : UInt16) :
    SurvivesAlone mode max (recOf k) := by
  have hw := (C47_acks k []).2.1
  obtain ⟨w', he, hr'⟩ := write_read hw (fun h => h.elim) (mode := mode) (max := max)
    ⟨by simp [texts], by simp [props, optList, PubRec.new]⟩ trivial id hm
  rw [he] at hw
  refine ⟨_, _, hw, ?_⟩
  have := hr' []
  rw [List.append_nil] at this
  exact this

theorem rel_survives (mode : StrMode) (max : Option Nat) (hm : Admits max 2) (k : UInt16) :
    SurvivesAlone mode max (relOf k) := by
  have hw := (C47_acks k []).2.2.1
  obtain ⟨w', he, hr'⟩ := write_read hw (fun h => h.elim) (mode := mode) (max := max)
    ⟨by simp [texts], by simp [props, optList, PubRel.new]⟩ trivial id hm
  rw [he] at hw
  refine ⟨_, _, hw, ?_⟩
  have := hr' []
  rw [List.append_nil] at this
  exact this

theorem comp_survives (mode : StrMode) (max : Option Nat) (hm : Admits max 2) (k : UInt16) :
    SurvivesAlone mode max (compOf k) := by
  have hw := (C47_acks k []).2.2.2
  obtain ⟨w', he, hr'⟩ := write_read hw (fun h => h.elim) (mode := mode) (max := max)
    ⟨by simp [texts], by simp [props, optList, PubComp.new]⟩ trivial id hm
  rw [he] at hw
  refine ⟨_, _, hw, ?_⟩
  have := hr' []
  rw [List.append_nil] at this
  exact this

/-- What the receiver reads for a pending message. -/
def sent (dup : Publish → Bool) : Publish × Bool → Out Packet
  | (p, false) => .ok (.Publish (arrival p (dup p)))
  | (p, true) => .ok (relOf p.pkid)

/-- Its answer. -/
def answer : Publish × Bool → Packet
  | (p, false) => recOf p.pkid
  | (p, true) => compOf p.pkid

/-- What becomes of a pending message when the answer comes. -/
def advance : Publish × Bool → List (Publish × Bool)
  | (p, false) => [(p, true)]
  | (_, true) => []

theorem norm_toSend {x : Publish × Bool} (hq : x.1.qos = .ExactlyOnce) (dup : Publish → Bool) :
    (Out.ok (norm (toSend dup x))) = sent dup x := by
  rcases x with ⟨p, _ | _⟩
  · simp only at hq
    simp [toSend, sent, norm, arrival, hq]
  · rfl

theorem norm_answer (x : Publish × Bool) : norm (answer x) = answer x := by
  rcases x with ⟨p, _ | _⟩ <;> rfl

theorem handle_pub (seen : List UInt16) (p : Publish) (os : List (Out Packet)) :
    handle seen (.ok (.Publish p) :: os) =
      ((handle (if p.pkid ∈ seen then seen else p.pkid :: seen) os).1,
       (if p.pkid ∈ seen then [] else [p]) ++
         (handle (if p.pkid ∈ seen then seen else p.pkid :: seen) os).2.1,
       recOf p.pkid :: (handle (if p.pkid ∈ seen then seen else p.pkid :: seen) os).2.2) := by
  by_cases h : p.pkid ∈ seen <;> simp [handle, h, recOf]

theorem handle_rel (seen : List UInt16) (k : UInt16) (os : List (Out Packet)) :
    handle seen (.ok (relOf k) :: os) =
      ((handle (seen.filter fun x => x ≠ k) os).1, (handle (seen.filter fun x => x ≠ k) os).2.1,
       compOf k :: (handle (seen.filter fun x => x ≠ k) os).2.2) := rfl

/-- The receiver on what is sent. -/
theorem handle_sent (dup : Publish → Bool) (xs : List (Publish × Bool))
    (hd : xs.Pairwise fun x y => x.1.pkid ≠ y.1.pkid) (seen : List UInt16) :
    (handle seen (xs.map (sent dup))).2.2 = xs.map answer ∧
    (handle seen (xs.map (sent dup))).2.1 =
      (xs.filter fun x => x.2 = false ∧ x.1.pkid ∉ seen).map (fun x => arrival x.1 (dup x.1)) ∧
    ∀ k, k ∈ (handle seen (xs.map (sent dup))).1 ↔
      (∃ x ∈ xs, x.2 = false ∧ x.1.pkid = k) ∨ (k ∈ seen ∧ ∀ x ∈ xs, x.2 = true → x.1.pkid ≠ k) := by
  induction xs generalizing seen with
  | nil => simp [handle]
  | cons x xs ih =>
    obtain ⟨hx, hd'⟩ := List.pairwise_cons.1 hd
    rcases x with ⟨p, _ | _⟩
    · obtain ⟨h1, h2, h3⟩ := ih hd' (if p.pkid ∈ seen then seen else p.pkid :: seen)
      rw [List.map_cons, show sent dup (p, false) = .ok (.Publish (arrival p (dup p))) from rfl,
        handle_pub, show (arrival p (dup p)).pkid = p.pkid from rfl]
      simp only [h1, h2, h3]
      refine ⟨rfl, ?_, fun k => ?_⟩
      · have hf : (xs.filter fun x => x.2 = false ∧
            x.1.pkid ∉ (if p.pkid ∈ seen then seen else p.pkid :: seen)) =
            xs.filter fun x => x.2 = false ∧ x.1.pkid ∉ seen := by
          refine List.filter_congr fun y hy => ?_
          have := hx y hy
          split
          · rfl
          · simp [Ne.symm this]
        rw [hf, List.filter_cons]
        by_cases h : p.pkid ∈ seen <;> simp [h]
      · by_cases h : p.pkid ∈ seen
        · simp only [if_pos h, List.mem_cons, exists_eq_or_imp, forall_eq_or_imp]
          constructor
          · rintro (h' | ⟨h1, h2⟩)
            · exact .inl (.inr h')
            · exact .inr ⟨h1, by simp, h2⟩
          · rintro ((⟨-, rfl⟩ | h') | ⟨h1, -, h2⟩)
            · exact .inr ⟨h, fun y hy _ e => hx y hy e.symm⟩
            · exact .inl h'
            · exact .inr ⟨h1, h2⟩
        · simp only [if_neg h, List.mem_cons, exists_eq_or_imp, forall_eq_or_imp]
          constructor
          · rintro (h' | ⟨rfl | h1, h2⟩)
            · exact .inl (.inr h')
            · exact .inl (.inl (by simp))
            · exact .inr ⟨h1, by simp, h2⟩
          · rintro ((⟨-, rfl⟩ | h') | ⟨h1, -, h2⟩)
            · exact .inr ⟨.inl rfl, fun y hy _ e => hx y hy e.symm⟩
            · exact .inl h'
            · exact .inr ⟨.inr h1, h2⟩
    · obtain ⟨h1, h2, h3⟩ := ih hd' (seen.filter fun k => k ≠ p.pkid)
      rw [List.map_cons, show sent dup (p, true) = .ok (relOf p.pkid) from rfl, handle_rel]
      simp only [h1, h2, h3]
      refine ⟨rfl, ?_, fun k => ?_⟩
      · rw [List.filter_cons]
        simp only [Bool.true_eq_false, false_and, decide_false, if_false, Bool.false_eq_true]
        congr 1
        refine List.filter_congr fun y hy => ?_
        have := hx y hy
        simp [Ne.symm this]
      · simp only [List.mem_cons, exists_eq_or_imp, forall_eq_or_imp, List.mem_filter]
        constructor
        · rintro (h' | ⟨h1, h2⟩)
          · exact .inl (.inr h')
          · exact .inr ⟨h1.1, fun _ e => by simp [e] at h1, h2⟩
        · rintro ((⟨h', -⟩ | h') | ⟨h1, h0, h2⟩)
          · simp at h'
          · exact .inl h'
          · exact .inr ⟨⟨h1, by simpa using Ne.symm (h0 trivial)⟩, h2⟩

/-- The sender on the first answers. -/
theorem settle_answers (pre xs rest : List (Publish × Bool))
    (hd : (pre ++ (xs ++ rest)).Pairwise fun x y => x.1.pkid ≠ y.1.pkid) :
    settle (pre ++ (xs ++ rest)) (xs.map fun x => .ok (answer x)) =
      pre ++ (xs.flatMap advance ++ rest) := by
  induction xs generalizing pre with
  | nil => rfl
  | cons x xs ih =>
    obtain ⟨g1, g2, g3⟩ := List.pairwise_append.1 hd
    obtain ⟨g4, g5⟩ := List.pairwise_cons.1 g2
    have hpre : ∀ y ∈ pre, y.1.pkid ≠ x.1.pkid := fun y hy => g3 y hy x (by simp)
    have hrest : ∀ y ∈ xs ++ rest, y.1.pkid ≠ x.1.pkid := fun y hy => Ne.symm (g4 y hy)
    rcases x with ⟨p, _ | _⟩
    · rw [List.map_cons]
      show settle ((pre ++ ((p, false) :: (xs ++ rest))).map fun x =>
        if x.1.pkid = p.pkid then (x.1, true) else x) _ = _
      have e : ∀ l : List (Publish × Bool), (∀ y ∈ l, y.1.pkid ≠ p.pkid) →
          l.map (fun x => if x.1.pkid = p.pkid then (x.1, true) else x) = l := by
        intro l hl
        conv => rhs; rw [← List.map_id l]
        exact List.map_congr_left fun y hy => by simp [hl y hy]
      rw [List.map_append, List.map_cons, e _ hpre, e _ hrest]
      have := ih (pre ++ [(p, true)]) (by
        rw [List.append_assoc]
        refine List.pairwise_append.2 ⟨g1, List.pairwise_cons.2 ⟨g4, g5⟩, ?_⟩
        intro y hy z hz
        rcases List.mem_cons.1 hz with rfl | hz
        · exact hpre y hy
        · exact g3 y hy z (List.mem_cons_of_mem _ hz))
      simpa [advance] using this
    · rw [List.map_cons]
      show settle ((pre ++ ((p, true) :: (xs ++ rest))).filter fun x =>
        ¬ (x.2 = true ∧ x.1.pkid = p.pkid)) _ = _
      have e : ∀ l : List (Publish × Bool), (∀ y ∈ l, y.1.pkid ≠ p.pkid) →
          (l.filter fun x => ¬ (x.2 = true ∧ x.1.pkid = p.pkid)) = l := by
        intro l hl
        refine List.filter_eq_self.2 fun y hy => ?_
        simp [hl y hy]
      rw [List.filter_append, List.filter_cons_of_neg (by simp), e _ hpre, e _ hrest]
      have := ih pre (List.pairwise_append.2 ⟨g1, g5, fun y hy z hz =>
        g3 y hy z (List.mem_cons_of_mem _ hz)⟩)
      simpa [advance] using this

/-- The pending messages: those with a PUBREC, then those read by the receiver, then the others. -/
def parts (R K F : List Publish) : List (Publish × Bool) :=
  R.map (·, true) ++ (K.map (·, false) ++ F.map (·, false))

/-- What the receiver's memory has to do with them. -/
def Remembers (R K : List Publish) (seen : List UInt16) : Prop :=
  (∀ p ∈ K, p.pkid ∈ seen) ∧ ∀ k ∈ seen, ∃ p ∈ R ++ K, p.pkid = k

theorem parts_map (R K F : List Publish) : (parts R K F).map (·.1) = R ++ (K ++ F) := by
  have h : ∀ (l : List Publish) (b : Bool), (l.map (fun p => (p, b))).map Prod.fst = l := by
    intro l b
    rw [List.map_map]
    exact List.map_id l
  simp only [parts, List.map_append, h]

theorem parts_distinct {R K F : List Publish}
    (hd : (parts R K F).Pairwise fun x y => x.1.pkid ≠ y.1.pkid) :
    (R ++ (K ++ F)).Pairwise fun p q => p.pkid ≠ q.pkid := by
  rw [← parts_map R K F]
  exact List.pairwise_map.2 hd

theorem parts_take (R K F : List Publish) (i : Nat) :
    (parts R K F).take i = parts (R.take i) (K.take (i - R.length)) (F.take (i - R.length - K.length)) := by
  simp only [parts, List.take_append, List.map_take, List.length_map]

/-- The receiver's part of a round. -/
theorem receive_facts (dup : Publish → Bool) {R K F : List Publish} {seen seen' : List UInt16}
    (hd : (parts R K F).Pairwise fun x y => x.1.pkid ≠ y.1.pkid) (hs : Remembers R K seen) (i : Nat)
    {got : List Publish} {replies : List Packet}
    (hh : handle seen (((parts R K F).take i).map (sent dup)) = (seen', got, replies)) :
    got = (F.take (i - R.length - K.length)).map (fun p => arrival p (dup p)) ∧
    replies = ((parts R K F).take i).map answer ∧
    Remembers R (K ++ F.take (i - R.length - K.length)) seen' ∧
    ∀ p ∈ R.take i, p.pkid ∉ seen' := by
  obtain ⟨h1, h2, h3⟩ := handle_sent dup ((parts R K F).take i) (hd.sublist (List.take_sublist _ _)) seen
  rw [hh] at h1 h2 h3
  simp only at h1 h2 h3
  have hp := parts_distinct hd
  obtain ⟨p1, p2, p3⟩ := List.pairwise_append.1 hp
  obtain ⟨p4, p5, p6⟩ := List.pairwise_append.1 p2
  rw [parts_take] at h2 h3
  generalize i - R.length - K.length = f at *
  have hA : ∀ x, x ∈ parts (R.take i) (K.take (i - R.length)) (F.take f) ↔
      (∃ p ∈ R.take i, x = (p, true)) ∨ (∃ p ∈ K.take (i - R.length), x = (p, false)) ∨
      ∃ p ∈ F.take f, x = (p, false) := by
    intro x
    simp only [parts, List.mem_append, List.mem_map, eq_comm]
  refine ⟨?_, h1, ⟨?_, ?_⟩, ?_⟩
  · rw [h2, parts, List.filter_append, List.filter_append, List.filter_eq_nil_iff.2,
      List.filter_eq_nil_iff.2, List.filter_eq_self.2, List.nil_append, List.nil_append, List.map_map]
    · rfl
    · intro x hx
      obtain ⟨p, hp, rfl⟩ := List.mem_map.1 hx
      have hpF := List.mem_of_mem_take hp
      simp only [true_and, decide_eq_true_eq]
      intro hk
      obtain ⟨q, hq, he⟩ := hs.2 _ hk
      rcases List.mem_append.1 hq with hq | hq
      · exact p3 q hq p (List.mem_append_right _ hpF) he
      · exact p6 q hq p hpF he
    · intro x hx
      obtain ⟨p, hp, rfl⟩ := List.mem_map.1 hx
      simp [hs.1 p (List.mem_of_mem_take hp)]
    · intro x hx
      obtain ⟨p, hp, rfl⟩ := List.mem_map.1 hx
      simp
  · intro p hp
    rw [h3]
    rcases List.mem_append.1 hp with hp | hp
    · refine .inr ⟨hs.1 p hp, fun x hx ht => ?_⟩
      rcases (hA x).1 hx with ⟨q, hq, rfl⟩ | ⟨q, hq, rfl⟩ | ⟨q, hq, rfl⟩
      · exact p3 q (List.mem_of_mem_take hq) p (List.mem_append_left _ hp)
      · simp at ht
      · simp at ht
    · exact .inl ⟨(p, false), (hA _).2 (.inr (.inr ⟨p, hp, rfl⟩)), rfl, rfl⟩
  · intro k hk
    rcases (h3 k).1 hk with ⟨x, hx, ht, rfl⟩ | ⟨hk, -⟩
    · rcases (hA x).1 hx with ⟨q, hq, rfl⟩ | ⟨q, hq, rfl⟩ | ⟨q, hq, rfl⟩
      · simp at ht
      · exact ⟨q, by simp [List.mem_of_mem_take hq], rfl⟩
      · exact ⟨q, by simp [hq], rfl⟩
    · obtain ⟨q, hq, rfl⟩ := hs.2 k hk
      exact ⟨q, by rw [← List.append_assoc]; exact List.mem_append_left _ hq, rfl⟩
  · intro p hp hk
    rcases (h3 _).1 hk with ⟨x, hx, ht, he⟩ | ⟨-, hk⟩
    · have hpR := List.mem_of_mem_take hp
      rcases (hA x).1 hx with ⟨q, hq, rfl⟩ | ⟨q, hq, rfl⟩ | ⟨q, hq, rfl⟩
      · simp at ht
      · exact p3 p hpR q (List.mem_append_left _ (List.mem_of_mem_take hq)) he.symm
      · exact p3 p hpR q (List.mem_append_right _ (List.mem_of_mem_take hq)) he.symm
    · exact hk (p, true) ((hA _).2 (.inl ⟨p, hp, rfl⟩)) rfl rfl

theorem flatMap_true (l : List Publish) : (l.map (·, true)).flatMap advance = [] := by
  induction l with
  | nil => rfl
  | cons p l ih => simp [advance]

theorem flatMap_false (l : List Publish) : (l.map (·, false)).flatMap advance = l.map (·, true) := by
  induction l with
  | nil => rfl
  | cons p l ih => simpa [advance] using ih

/-- The sender's part of a round: `l` answers come, of the at least `l` that the receiver gave. -/
theorem sender_facts {R K F : List Publish} {seen : List UInt16}
    (hd : (parts R K F).Pairwise fun x y => x.1.pkid ≠ y.1.pkid) (hs : Remembers R K seen) (i l : Nat)
    (hi : ∀ p ∈ R.take i, p.pkid ∉ seen) (hl : l ≤ i) (hlK : l ≤ R.length + K.length) :
    ∃ D R' K', settle (parts R K F) (((parts R K F).take l).map fun x => .ok (answer x)) =
        parts R' K' F ∧ D ++ (R' ++ K') = R ++ K ∧ Remembers R' K' seen ∧
      (l = R.length + K.length → K' = [] ∧ (K = [] → R' = [])) := by
  have hset := settle_answers [] ((parts R K F).take l) ((parts R K F).drop l) (by
    rw [List.nil_append, List.take_append_drop]; exact hd)
  rw [List.nil_append, List.take_append_drop, List.nil_append] at hset
  have hin : ∀ p ∈ R.take l, p.pkid ∉ seen := fun p hp =>
    hi p ((List.take_sublist_take_left hl).subset hp)
  by_cases h : l ≤ R.length
  · refine ⟨R.take l, R.drop l, K, ?_, ?_, ⟨hs.1, ?_⟩, fun e => ?_⟩
    · rw [hset]
      simp only [parts, List.take_append, List.drop_append, List.length_map, Nat.sub_eq_zero_of_le h,
        List.take_zero, List.drop_zero, List.append_nil, Nat.zero_sub, ← List.map_take, ← List.map_drop,
        List.map_nil, flatMap_true, List.nil_append]
    · rw [← List.append_assoc, List.take_append_drop]
    · intro k hk
      obtain ⟨p, hp, rfl⟩ := hs.2 k hk
      refine ⟨p, ?_, rfl⟩
      rcases List.mem_append.1 hp with hp | hp
      · rw [← List.take_append_drop l R] at hp
        rcases List.mem_append.1 hp with hp | hp
        · exact absurd hk (hin p hp)
        · exact List.mem_append_left _ hp
      · exact List.mem_append_right _ hp
    · have hk : K = [] := List.length_eq_zero_iff.1 (by omega)
      exact ⟨hk, fun _ => List.drop_eq_nil_of_le (by omega)⟩
  · have ht : R.take l = R := List.take_of_length_le (by omega)
    refine ⟨R, K.take (l - R.length), K.drop (l - R.length), ?_, ?_, ⟨?_, ?_⟩, fun e => ?_⟩
    · rw [hset]
      simp only [parts, List.take_append, List.drop_append, List.length_map, ← List.map_take,
        ← List.map_drop, ht, List.drop_eq_nil_of_le (show R.length ≤ l by omega), List.flatMap_append,
        flatMap_true, flatMap_false, List.nil_append, List.map_nil,
        show l - R.length - K.length = 0 by omega, List.take_zero, List.drop_zero, List.append_nil]
    · rw [List.take_append_drop]
    · exact fun p hp => hs.1 p (List.mem_of_mem_drop hp)
    · intro k hk
      obtain ⟨p, hp, rfl⟩ := hs.2 k hk
      refine ⟨p, ?_, rfl⟩
      rcases List.mem_append.1 hp with hp | hp
      · exact absurd hk (hin p (by rw [ht]; exact hp))
      · rw [List.take_append_drop]; exact hp
    · exact ⟨List.drop_eq_nil_of_le (by omega), fun h => by simp [h]⟩

theorem answers_four {l : List (Publish × Bool)} :
    ∀ p ∈ l.map answer, ∀ b, ∃ w, p.write b = (.ok 4, b ++ w) ∧ w.length = 4 := by
  intro p hp b
  obtain ⟨⟨q, _ | _⟩, hq, rfl⟩ := List.mem_map.1 hp
  · exact ⟨[0x50, 2] ++ u16 q.pkid, by rw [← List.append_assoc]; exact (C47_acks q.pkid b).2.1, rfl⟩
  · exact ⟨[0x70, 2] ++ u16 q.pkid, by rw [← List.append_assoc]; exact (C47_acks q.pkid b).2.2.2, rfl⟩

/-- What comes over the wire in one round. -/
theorem round_wire {mode : StrMode} {max max' : Option Nat} (hm : Admits max 2) (hm' : Admits max' 2)
    {pending : List (Publish × Bool)} {seen : List UInt16}
    (hd : pending.Pairwise fun x y => x.1.pkid ≠ y.1.pkid)
    (hp : ∀ x ∈ pending, x.1.qos = .ExactlyOnce ∧ SurvivesAlone mode max (.Publish x.1))
    {dup : Publish → Bool} {b a torn torn' : Bytes} {os os' : List (Out Packet)} {k j : Nat}
    (h1 : WriteAll (pending.map (toSend dup)) [] b) (h2 : k ≤ b.length)
    (h3 : Drains mode max (b.take k) os torn)
    (h4 : WriteAll (handle seen os).2.2 [] a) (h5 : j ≤ a.length)
    (h6 : Drains mode max' (a.take j) os' torn') :
    ∃ i, i ≤ pending.length ∧
      (∀ n, n ≤ pending.length → ∀ c, WriteAll ((pending.take n).map (toSend dup)) [] c →
        (c.length ≤ k ↔ n ≤ i)) ∧
      os = (pending.take i).map (sent dup) ∧
      os' = (pending.take (min i (j / 4))).map (fun x => .ok (answer x)) ∧
      (k = b.length → i = pending.length) ∧ (j = a.length → i ≤ j / 4) := by
  obtain ⟨e1, e2, -, e3, -⟩ := C84_broken mode max _ b h1 (by
    intro p hp'
    obtain ⟨⟨q, _ | _⟩, hq, rfl⟩ := List.mem_map.1 hp' <;> exact id) (by
    intro p hp'
    obtain ⟨⟨q, _ | _⟩, hq, rfl⟩ := List.mem_map.1 hp'
    · exact resend_survives (hp _ hq).2
    · exact rel_survives mode max hm q.pkid) k h2 os torn h3
  rw [List.length_map] at e1 e3
  have g1 : os = (pending.take os.length).map (sent dup) := by
    conv => lhs; rw [e2, ← List.map_take, List.map_map]
    exact List.map_congr_left fun x hx => norm_toSend (hp x (List.mem_of_mem_take hx)).1 dup
  have g2 : (handle seen os).2.2 = (pending.take os.length).map answer := by
    conv => lhs; rw [g1]
    exact (handle_sent dup _ (hd.sublist (List.take_sublist _ _)) seen).1
  rw [g2] at h4
  have hc : ∀ p ∈ (pending.take os.length).map answer, ¬ IsConnect p := by
    intro p hp'
    obtain ⟨⟨q, _ | _⟩, hq, rfl⟩ := List.mem_map.1 hp' <;> exact id
  have hs : ∀ p ∈ (pending.take os.length).map answer, SurvivesAlone mode max' p := by
    intro p hp'
    obtain ⟨⟨q, _ | _⟩, hq, rfl⟩ := List.mem_map.1 hp'
    · exact rec_survives mode max' hm' q.pkid
    · exact comp_survives mode max' hm' q.pkid
  obtain ⟨f1, f2, -⟩ := C84_broken mode max' _ a h4 hc hs j h5 os' torn' h6
  have f3 := broken_four h4 hc hs answers_four h5 h6
  rw [List.length_map, List.length_take, Nat.min_eq_left e1] at f1 f3
  refine ⟨os.length, e1, ?_, g1, ?_, fun e => ?_, fun e => ?_⟩
  · intro n hn c hc'
    exact e3 n hn c (by rw [← List.map_take]; exact hc')
  · rw [← f3]
    conv => lhs; rw [f2, ← List.map_take, List.take_take, Nat.min_eq_left f1, List.map_map]
    exact List.map_congr_left fun x hx => by simp only [Function.comp, norm_answer]
  · have := (e3 pending.length (Nat.le_refl _) b (by
      rw [List.take_of_length_le (by simp)]; exact h1)).1 (by omega)
    omega
  · have := writeAll_four h4 answers_four
    rw [List.length_map, List.length_take, Nat.min_eq_left e1, List.length_nil] at this
    omega

theorem distinct_parts {R K F : List Publish}
    (hd : (R ++ (K ++ F)).Pairwise fun p q => p.pkid ≠ q.pkid) :
    (parts R K F).Pairwise fun x y => x.1.pkid ≠ y.1.pkid := by
  rw [← parts_map R K F] at hd
  exact (List.pairwise_map (f := Prod.fst) (R := fun p q : Publish => p.pkid ≠ q.pkid)).1 hd

theorem mem_parts {R K F : List Publish} {x : Publish × Bool} (h : x ∈ parts R K F) :
    x.1 ∈ R ++ (K ++ F) := by
  rw [← parts_map R K F]
  exact List.mem_map.2 ⟨x, h, rfl⟩

theorem parts_length (R K F : List Publish) :
    (parts R K F).length = R.length + K.length + F.length := by
  simp [parts]; omega

/-- What holds between the rounds: messages completed, with their PUBREC, read by the receiver, and not
read yet. -/
structure OnceInv (mode : StrMode) (max : Option Nat) (all : List Publish) (s : Once)
    (done R K F : List Publish) (ds : List (Publish × Bool)) : Prop where
  pending : s.pending = parts R K F
  distinct : (R ++ (K ++ F)).Pairwise fun p q => p.pkid ≠ q.pkid
  survive : ∀ p ∈ R ++ (K ++ F), p.qos = .ExactlyOnce ∧ SurvivesAlone mode max (.Publish p)
  all_eq : all = done ++ (R ++ (K ++ F))
  seen : Remembers R K s.seen
  got : s.received = ds.map fun x => arrival x.1 x.2
  ds_eq : ds.map (·.1) = done ++ (R ++ K)

/-- One round. -/
theorem round_inv {mode : StrMode} {max max' : Option Nat} (hm : Admits max 2) (hm' : Admits max' 2)
    {all : List Publish} {s : Once} {done R K F : List Publish} {ds : List (Publish × Bool)}
    (hI : OnceInv mode max all s done R K F ds)
    {dup : Publish → Bool} {b a torn torn' : Bytes} {os os' : List (Out Packet)} {k j : Nat}
    (h1 : WriteAll (s.pending.map (toSend dup)) [] b) (h2 : k ≤ b.length)
    (h3 : Drains mode max (b.take k) os torn)
    (h4 : WriteAll (handle s.seen os).2.2 [] a) (h5 : j ≤ a.length)
    (h6 : Drains mode max' (a.take j) os' torn') :
    ∃ done' R' K' F' ds', OnceInv mode max all {
        pending := settle s.pending os'
        seen := (handle s.seen os).1
        received := s.received ++ (handle s.seen os).2.1 } done' R' K' F' ds' ∧
      (k = b.length → j = a.length → K' = [] ∧ F' = [] ∧ (K = [] → F = [] → R' = [])) := by
  obtain ⟨e1, e2, e3, e4, e5, e6, e7⟩ := hI
  have hd := distinct_parts e2
  rw [e1] at h1
  obtain ⟨i, g2, -, g3, g4, g5, g6⟩ := round_wire hm hm' hd (fun x hx => e3 _ (mem_parts hx))
    h1 h2 h3 h4 h5 h6
  have g1 : min i (j / 4) ≤ i := Nat.min_le_left _ _
  replace g6 : j = a.length → min i (j / 4) = i := fun e => Nat.min_eq_left (g6 e)
  generalize min i (j / 4) = l at *
  rw [parts_length] at g2 g5
  subst g3
  obtain ⟨r1, -, r3, r4⟩ := receive_facts dup hd e5 i rfl
  have hparts : parts R K F = parts R (K ++ F.take (i - R.length - K.length))
      (F.drop (i - R.length - K.length)) := by
    simp only [parts, List.append_assoc, ← List.map_append, List.take_append_drop]
  have hKl : (K ++ F.take (i - R.length - K.length)).length =
      K.length + min (i - R.length - K.length) F.length := by
    rw [List.length_append, List.length_take]
  have hKF : (K ++ F.take (i - R.length - K.length)) ++ F.drop (i - R.length - K.length) = K ++ F := by
    rw [List.append_assoc, List.take_append_drop]
  have hFd : i = R.length + K.length + F.length → F.drop (i - R.length - K.length) = [] := fun h =>
    List.drop_eq_nil_of_le (by omega)
  have hK0 : K = [] → F = [] → K ++ F.take (i - R.length - K.length) = [] := by
    rintro rfl rfl; simp
  have hgot : (s.received ++ (handle s.seen (((parts R K F).take i).map (sent dup))).2.1) =
      (ds ++ (F.take (i - R.length - K.length)).map fun p => (p, dup p)).map
        fun x => arrival x.1 x.2 := by
    rw [r1, e6, List.map_append, List.map_map]; rfl
  have hds : (ds ++ (F.take (i - R.length - K.length)).map fun p => (p, dup p)).map (·.1) =
      done ++ (R ++ (K ++ F.take (i - R.length - K.length))) := by
    rw [List.map_append, e7, List.map_map,
      show ((fun x : Publish × Bool => x.1) ∘ fun p => (p, dup p)) = id from rfl, List.map_id]
    simp only [List.append_assoc]
  obtain ⟨D, R', K', s1, s2, s3, s4⟩ := sender_facts (hparts ▸ hd) r3 i l r4 g1 (by rw [hKl]; omega)
  rw [← hparts] at s1
  have hall : D ++ (R' ++ (K' ++ F.drop (i - R.length - K.length))) = R ++ (K ++ F) := by
    rw [← hKF, ← List.append_assoc R, ← s2]
    simp only [List.append_assoc]
  refine ⟨done ++ D, R', K', F.drop (i - R.length - K.length), _,
    ⟨?_, ?_, ?_, ?_, s3, hgot, ?_⟩, ?_⟩
  · rw [e1, g4]; exact s1
  · rw [← hall] at e2
    exact (List.pairwise_append.1 e2).2.1
  · intro p hp
    refine e3 p ?_
    rw [← hall]
    exact List.mem_append_right _ hp
  · rw [e4, List.append_assoc, hall]
  · rw [hds, List.append_assoc, s2]
  · intro hk hj
    obtain ⟨t1, t2⟩ := s4 (by rw [hKl]; have := g5 hk; have := g6 hj; omega)
    exact ⟨t1, hFd (g5 hk), fun h h' => t2 (hK0 h h')⟩

theorem rounds_inv {mode : StrMode} {max max' : Option Nat} (hm : Admits max 2) (hm' : Admits max' 2)
    {all : List Publish} {s : Once} (h : Rounds mode max max' all s) :
    ∃ done R K F ds, OnceInv mode max all s done R K F ds := by
  induction h with
  | start => exact ⟨[], [], [], [], [], rfl, .nil, by simp, rfl, ⟨by simp, by simp⟩, rfl, rfl⟩
  | @submit all s m _ hq hd hs ih =>
    obtain ⟨done, R, K, F, ds, e1, e2, e3, e4, e5, e6, e7⟩ := ih
    refine ⟨done, R, K, F ++ [m], ds, ?_, ?_, ?_, ?_, e5, e6, e7⟩
    · simp [e1, parts]
    · rw [← List.append_assoc K, ← List.append_assoc R]
      refine List.pairwise_append.2 ⟨e2, List.pairwise_singleton _ _, ?_⟩
      intro p hp q hq
      obtain rfl := List.mem_singleton.1 hq
      rw [← parts_map, ← e1] at hp
      obtain ⟨x, hx, rfl⟩ := List.mem_map.1 hp
      exact hd x hx
    · intro p hp
      rw [← List.append_assoc K, ← List.append_assoc R] at hp
      rcases List.mem_append.1 hp with hp | hp
      · exact e3 p hp
      · obtain rfl := List.mem_singleton.1 hp
        exact ⟨hq, hs⟩
    · rw [e4]; simp only [List.append_assoc]
  | round _ g1 g2 g3 g4 g5 g6 ih =>
    obtain ⟨done, R, K, F, ds, hI⟩ := ih
    obtain ⟨done', R', K', F', ds', h, -⟩ := round_inv hm hm' hI g1 g2 g3 g4 g5 g6
    exact ⟨done', R', K', F', ds', h⟩

theorem flatMap_advance (l : List (Publish × Bool)) :
    l.flatMap advance = l.filterMap fun x => if x.2 then none else some (x.1, true) := by
  induction l with
  | nil => rfl
  | cons x l ih => rcases x with ⟨p, _ | _⟩ <;> simp [advance, ih]

/-- C85, what one round does, exactly: the receiver reads what is sent for the pending messages for which
all bytes have arrived, and passes on those of them that are new; and of these, as many advance as whole
answers, of 4 bytes each, come back: PUBREC has come, or the message is complete. -/
theorem C85_round (mode : StrMode) (max max' : Option Nat) (hm : Admits max 2) (hm' : Admits max' 2)
    (all : List Publish) (s : Once) (h : Rounds mode max max' all s)
    (dup : Publish → Bool) (b a torn torn' : Bytes) (os os' : List (Out Packet)) (k j : Nat)
    (h1 : WriteAll (s.pending.map (toSend dup)) [] b) (h2 : k ≤ b.length)
    (h3 : Drains mode max (b.take k) os torn)
    (h4 : WriteAll (handle s.seen os).2.2 [] a) (h5 : j ≤ a.length)
    (h6 : Drains mode max' (a.take j) os' torn') :
    ∃ i, i ≤ s.pending.length ∧
      (∀ n, n ≤ s.pending.length → ∀ c, WriteAll ((s.pending.take n).map (toSend dup)) [] c →
        (c.length ≤ k ↔ n ≤ i)) ∧
      (handle s.seen os).2.1 = ((s.pending.take i).filter fun x => x.2 = false ∧ x.1.pkid ∉ s.seen).map
        (fun x => arrival x.1 (dup x.1)) ∧
      settle s.pending os' =
        ((s.pending.take (min i (j / 4))).filterMap fun x => if x.2 then none else some (x.1, true)) ++
          s.pending.drop (min i (j / 4)) := by
  obtain ⟨done, R, K, F, ds, e1, e2, e3, -, -, -, -⟩ := rounds_inv hm hm' h
  have hd := distinct_parts e2
  rw [← e1] at hd
  obtain ⟨i, g1, g2, rfl, rfl, -, -⟩ := round_wire hm hm' hd
    (fun x hx => e3 _ (mem_parts (e1 ▸ hx))) h1 h2 h3 h4 h5 h6
  refine ⟨i, g1, g2, (handle_sent dup _ (hd.sublist (List.take_sublist _ _)) s.seen).2.1, ?_⟩
  have := settle_answers [] (s.pending.take (min i (j / 4))) (s.pending.drop (min i (j / 4))) (by
    rw [List.nil_append, List.take_append_drop]; exact hd)
  rw [List.nil_append, List.take_append_drop, List.nil_append] at this
  rw [this, flatMap_advance]

/-- C85: exactly once. The messages that the receiver has passed on are the first ones handed over, each
once and in order, up to the DUP flag and to empty properties; and those that the sender has completed are
among them. -/
theorem C85_once (mode : StrMode) (max max' : Option Nat) (hm : Admits max 2) (hm' : Admits max' 2)
    (all : List Publish) (s : Once) (h : Rounds mode max max' all s) :
    ∃ (done : List Publish) (ds : List (Publish × Bool)), all = done ++ s.pending.map (·.1) ∧
      s.received = ds.map (fun x => arrival x.1 x.2) ∧
      done <+: ds.map (·.1) ∧ ds.map (·.1) <+: all := by
  obtain ⟨done, R, K, F, ds, e1, -, -, e4, -, e6, e7⟩ := rounds_inv hm hm' h
  refine ⟨done, ds, ?_, e6, ?_, ?_⟩
  · rw [e1, parts_map, e4]
  · rw [e7]; exact List.prefix_append _ _
  · rw [e7, e4]
    exact ⟨F, by simp only [List.append_assoc]⟩

/-- C85: the receiver remembers only identifiers of messages that are pending, so a completed message's
identifier is free again. -/
theorem C85_memory (mode : StrMode) (max max' : Option Nat) (hm : Admits max 2) (hm' : Admits max' 2)
    (all : List Publish) (s : Once) (h : Rounds mode max max' all s) :
    ∀ k ∈ s.seen, ∃ x ∈ s.pending, x.1.pkid = k := by
  obtain ⟨done, R, K, F, ds, e1, -, -, -, e5, -, -⟩ := rounds_inv hm hm' h
  intro k hk
  obtain ⟨p, hp, he⟩ := e5.2 k hk
  have : p ∈ s.pending.map (·.1) := by
    rw [e1, parts_map, ← List.append_assoc]
    exact List.mem_append_left _ hp
  obtain ⟨x, hx, rfl⟩ := List.mem_map.1 this
  exact ⟨x, hx, he⟩

theorem handle_replies (seen : List UInt16) (os : List (Out Packet)) :
    ∀ p ∈ (handle seen os).2.2, ∃ k, p = recOf k ∨ p = compOf k := by
  fun_induction handle seen os with
  | case1 => simp
  | case2 seen p os a h r ih => exact List.forall_mem_cons.2 ⟨⟨_, .inl rfl⟩, ih⟩
  | case3 seen p os a h r ih => exact List.forall_mem_cons.2 ⟨⟨_, .inl rfl⟩, ih⟩
  | case4 seen a os r ih => exact List.forall_mem_cons.2 ⟨⟨_, .inr rfl⟩, ih⟩
  | case5 seen o os h1 h2 ih => exact ih

/-- A round that does not break. -/
theorem full_data {mode : StrMode} {max max' : Option Nat} (hm : Admits max 2) (hm' : Admits max' 2)
    {all : List Publish} {s : Once} {done R K F : List Publish}
    {ds : List (Publish × Bool)} (hI : OnceInv mode max all s done R K F ds) :
    ∃ b a torn torn' os os', WriteAll (s.pending.map (toSend fun _ => true)) [] b ∧
      Drains mode max (b.take b.length) os torn ∧ WriteAll (handle s.seen os).2.2 [] a ∧
      Drains mode max' (a.take a.length) os' torn' ∧
      ∃ done' R' ds', OnceInv mode max all {
          pending := settle s.pending os'
          seen := (handle s.seen os).1
          received := s.received ++ (handle s.seen os).2.1 } done' R' [] [] ds' ∧
        (K = [] → F = [] → R' = []) := by
  obtain ⟨b, hb⟩ := writeAll_total (ps := s.pending.map (toSend fun _ => true)) (by
    intro p hp
    obtain ⟨⟨q, _ | _⟩, hq, rfl⟩ := List.mem_map.1 hp
    · have := hI.survive q (mem_parts (hI.pending ▸ hq))
      obtain ⟨n, w, hw, -⟩ := resend_survives (d := true) this.2
      exact encodable_of_ok hw
    · exact encodable_of_ok (C47_acks q.pkid []).2.2.1) []
  obtain ⟨os, torn, hos⟩ := drains_total mode max (b.take b.length)
  have henc : ∀ p ∈ (handle s.seen os).2.2, Encodable p := by
    intro p hp
    obtain ⟨k, rfl | rfl⟩ := handle_replies s.seen os p hp
    · exact encodable_of_ok (C47_acks k []).2.1
    · exact encodable_of_ok (C47_acks k []).2.2.2
  obtain ⟨a, ha⟩ := writeAll_total henc []
  obtain ⟨os', torn', hos'⟩ := drains_total mode max' (a.take a.length)
  obtain ⟨done', R', K', F', ds', hI', h'⟩ :=
    round_inv hm hm' hI hb (Nat.le_refl _) hos ha (Nat.le_refl _) hos'
  obtain ⟨rfl, rfl, h0⟩ := h' rfl rfl
  exact ⟨b, a, torn, torn', os, os', hb, hos, ha, hos', done', R', ds', hI', h0⟩

theorem full_round {mode : StrMode} {max max' : Option Nat} (hm : Admits max 2) (hm' : Admits max' 2)
    {all : List Publish} {s : Once} (h : Rounds mode max max' all s) {done R K F : List Publish}
    {ds : List (Publish × Bool)} (hI : OnceInv mode max all s done R K F ds) :
    ∃ s' done' R' ds', Rounds mode max max' all s' ∧ OnceInv mode max all s' done' R' [] [] ds' ∧
      (K = [] → F = [] → R' = []) := by
  obtain ⟨b, a, torn, torn', os, os', hb, hos, ha, hos', done', R', ds', hI', h0⟩ := full_data hm hm' hI
  exact ⟨_, done', R', ds', .round h hb (Nat.le_refl _) hos ha (Nat.le_refl _) hos', hI', h0⟩

/-- C85: two rounds that do not break are always possible, and complete every message: the receiver then
has passed on each of them, once and in order, and remembers nothing. -/
theorem C85_done (mode : StrMode) (max max' : Option Nat) (hm : Admits max 2) (hm' : Admits max' 2)
    (all : List Publish) (s : Once) (h : Rounds mode max max' all s) :
    ∃ s', Rounds mode max max' all s' ∧ s'.pending = [] ∧ s'.seen = [] ∧
      ∃ ds : List (Publish × Bool), ds.map (·.1) = all ∧
        s'.received = ds.map fun x => arrival x.1 x.2 := by
  obtain ⟨done, R, K, F, ds, hI⟩ := rounds_inv hm hm' h
  obtain ⟨s1, done1, R1, ds1, h1, hI1, -⟩ := full_round hm hm' h hI
  obtain ⟨s2, done2, R2, ds2, h2, hI2, h0⟩ := full_round hm hm' h1 hI1
  obtain rfl := h0 rfl rfl
  refine ⟨s2, h2, hI2.pending, ?_, ds2, ?_, hI2.got⟩
  · refine List.eq_nil_iff_forall_not_mem.2 fun k hk => ?_
    obtain ⟨p, hp, -⟩ := hI2.seen.2 k hk
    simp at hp
  · rw [hI2.ds_eq, hI2.all_eq]; rfl

/-- The hypotheses are met: a message whose PUBREC is cut in the first round. The receiver reads it twice
and passes it on once. -/
example (m : Publish) (e : m = {
      dup := false, qos := .ExactlyOnce, retain := false, topic := [97], pkid := 7, payload := [1]
      properties := none }) :
    Rounds .utf8 none (some 2) [m] { pending := [], seen := [], received := [m] } := by
  have h0 : Rounds .utf8 none (some 2) [m] { pending := [(m, false)], seen := [], received := [] } := by
    subst e
    exact .submit (all := []) .start rfl (by simp)
      ⟨9, [0x34, 7, 0, 1, 97, 0, 7, 0, 1], by decide +kernel, by decide +kernel⟩
  have h1 : Rounds .utf8 none (some 2) [m] { pending := [(m, false)], seen := [7], received := [m] } := by
    subst e
    have := Rounds.round (dup := fun _ => false) (b := [0x34, 7, 0, 1, 97, 0, 7, 0, 1]) (k := 9)
      (os := [.ok (.Publish { dup := false, qos := .ExactlyOnce, retain := false, topic := [97], pkid := 7,
                              payload := [1], properties := none })]) (torn := [])
      (a := [0x50, 2, 0, 7]) (j := 3) (os' := []) (torn' := [0x50, 2, 0]) h0
      (.cons (n := 9) (b1 := [0x34, 7, 0, 1, 97, 0, 7, 0, 1]) (by decide +kernel) (.nil _)) (by simp)
      (.step (b1 := []) (by decide +kernel) (by simp) (.stop (by decide +kernel)))
      (.cons (n := 4) (b1 := [0x50, 2, 0, 7]) (by decide +kernel) (.nil _)) (by simp)
      (.stop (by decide +kernel))
    simpa [handle, settle] using this
  have h2 : Rounds .utf8 none (some 2) [m] { pending := [(m, true)], seen := [7], received := [m] } := by
    subst e
    have := Rounds.round (dup := fun _ => true) (b := [0x3C, 7, 0, 1, 97, 0, 7, 0, 1]) (k := 9)
      (os := [.ok (.Publish { dup := true, qos := .ExactlyOnce, retain := false, topic := [97], pkid := 7,
                              payload := [1], properties := none })]) (torn := [])
      (a := [0x50, 2, 0, 7]) (j := 4)
      (os' := [.ok (.PubRec { pkid := 7, reason := .Success, properties := none })]) (torn' := []) h1
      (.cons (n := 9) (b1 := [0x3C, 7, 0, 1, 97, 0, 7, 0, 1]) (by decide +kernel) (.nil _)) (by simp)
      (.step (b1 := []) (by decide +kernel) (by simp) (.stop (by decide +kernel)))
      (.cons (n := 4) (b1 := [0x50, 2, 0, 7]) (by decide +kernel) (.nil _)) (by simp)
      (.step (b1 := []) (by decide +kernel) (by simp) (.stop (by decide +kernel)))
    simpa [handle, settle] using this
  subst e
  have := Rounds.round (dup := fun _ => true) (b := [0x62, 2, 0, 7]) (k := 4)
    (os := [.ok (.PubRel { pkid := 7, reason := .Success, properties := none })]) (torn := [])
    (a := [0x70, 2, 0, 7]) (j := 4)
    (os' := [.ok (.PubComp { pkid := 7, reason := .Success, properties := none })]) (torn' := []) h2
    (.cons (n := 4) (b1 := [0x62, 2, 0, 7]) (by decide +kernel) (.nil _)) (by simp)
    (.step (b1 := []) (by decide +kernel) (by simp) (.stop (by decide +kernel)))
    (.cons (n := 4) (b1 := [0x70, 2, 0, 7]) (by decide +kernel) (.nil _)) (by simp)
    (.step (b1 := []) (by decide +kernel) (by simp) (.stop (by decide +kernel)))
  simpa [handle, settle] using this

end Props
