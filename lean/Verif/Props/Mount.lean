import Verif.Spec.Mount
import Verif.Props.Cover
/-
C82: topics and filters behind a prefix.
-/
namespace Props

open Mqtt Mqtt.Topic Spec.Topic Cover

theorem splitC_under (p t : List Char) : splitC (under p t) = splitC p ++ splitC t := by
  induction p with
  | nil => simp [under, splitC]
  | cons c p ih =>
    have ih : splitC (p ++ '/' :: t) = splitC p ++ splitC t := ih
    rw [under, List.cons_append, splitC, splitC, ih]
    by_cases h : c = '/'
    · rw [if_pos h, if_pos h, List.cons_append]
    · rw [if_neg h, if_neg h]
      cases hp : splitC p with
      | nil => exact absurd hp (splitC_ne_nil p)
      | cons l ls => rfl

theorem splitC_inj {s t : List Char} (h : splitC s = splitC t) : s = t := by
  rw [(splitC_levels s).2.2, (splitC_levels t).2.2, h]

theorem matchesAny_iff (t f : List Char) : MatchesAny t f ↔ LoopMatch (splitC f) (splitC t) := by
  rw [loopMatch_any]
  constructor
  · rintro ⟨fs, ts, frest, trest, h1, h2, h⟩
    exact ⟨fs, ts, frest, trest, ((levels_iff _ _).1 h1).symm, ((levels_iff _ _).1 h2).symm, h⟩
  · rintro ⟨fs, ts, frest, trest, h1, h2, h⟩
    exact ⟨fs, ts, frest, trest, (levels_iff _ _).2 h1.symm, (levels_iff _ _).2 h2.symm, h⟩

theorem splitC_plain {p : List Char} (hp : NoWildcards p) : ∀ l ∈ splitC p, l ≠ ['+'] ∧ l ≠ ['#'] := by
  intro l hl
  constructor
  · rintro rfl
    apply hp.1
    rw [(splitC_levels p).2.2]
    exact mem_intercalate hl (.head _)
  · rintro rfl
    apply hp.2
    rw [(splitC_levels p).2.2]
    exact mem_intercalate hl (.head _)

theorem loop_prefix : ∀ {ps fs ts : List (List Char)}, (∀ l ∈ ps, l ≠ ['+'] ∧ l ≠ ['#']) →
    (LoopMatch (ps ++ fs) ts ↔ ∃ ts', ts = ps ++ ts' ∧ LoopMatch fs ts')
  | [], fs, ts, _ => by simp
  | l :: ps, fs, ts, h => by
    have hl := h l (.head _)
    rw [List.cons_append, LoopMatch]
    constructor
    · rintro (rfl | ⟨t, ts', rfl, -, hk, hm⟩)
      · exact absurd rfl hl.2
      · obtain ⟨ts'', rfl, hm2⟩ := (loop_prefix fun l hl => h l (.tail _ hl)).1 hm
        rcases hk with rfl | rfl
        · exact absurd rfl hl.1
        · exact ⟨ts'', rfl, hm2⟩
    · rintro ⟨ts', rfl, hm⟩
      exact .inr ⟨l, ps ++ ts', rfl, hl.2, .inr rfl,
        (loop_prefix fun l hl => h l (.tail _ hl)).2 ⟨ts', rfl, hm⟩⟩

theorem plainStart_under {p : List Char} (t : List Char) (h : PlainStart p) :
    PlainStart (under p t) := by
  intro c r he
  cases p with
  | nil =>
    cases he
    decide
  | cons d p =>
    cases he
    exact h c p rfl

theorem splitC_surj {ls : List (List Char)} (h0 : ls ≠ []) (h : ∀ l ∈ ls, '/' ∉ l) :
    ∃ s, splitC s = ls := ⟨join ls, splitC_join h0 h⟩

/-- C82, validity: behind a prefix without wildcards a topic name is valid exactly if it is valid
alone, and so is a filter, unless it is empty: the empty filter is valid behind a prefix. -/
theorem C82_valid (p : List Char) (hp : NoWildcards p) (s : List Char) :
    valid_topic (bytes (under p s)) = valid_topic (bytes s) ∧
    (valid_filter (bytes (under p s)) = .ok true ↔ s = [] ∨ valid_filter (bytes s) = .ok true) := by
  constructor
  · rw [Bool.eq_iff_iff, (C41_wildcards _).2, (C41_wildcards _).2]
    simp only [NoWildcards, under, List.mem_append, List.mem_cons, not_or]
    constructor
    · rintro ⟨h1, h2⟩; exact ⟨h1.2.2, h2.2.2⟩
    · rintro ⟨h1, h2⟩; exact ⟨⟨hp.1, by decide, h1⟩, ⟨hp.2, by decide, h2⟩⟩
  · rw [(C41_valid_filter _).1, (C41_valid_filter _).1]
    have hps : ∀ l ∈ splitC p, '#' ∉ l ∧ ('+' ∈ l → l = ['+']) := by
      intro l hl
      have hs := (splitC_levels p).2.2
      exact ⟨fun h => absurd (hs ▸ mem_intercalate hl h) hp.2,
        fun h => absurd (hs ▸ mem_intercalate hl h) hp.1⟩
    have key : ∀ init last, splitC s = init ++ [last] →
        Levels (under p s) ((splitC p ++ init) ++ [last]) := by
      intro init last h
      rw [levels_iff, splitC_under, h, List.append_assoc]
    constructor
    · rintro ⟨-, init, last, hl, hi, h1, h2⟩
      by_cases h0 : s = []
      · exact .inl h0
      · refine .inr ⟨h0, (splitC s).dropLast, (splitC s).getLast (splitC_ne_nil s), ?_, ?_⟩
        · rw [levels_iff, List.dropLast_concat_getLast]
        · have hk := key _ _ (List.dropLast_concat_getLast (splitC_ne_nil s)).symm
          rw [levels_iff] at hl hk
          obtain ⟨rfl, hk⟩ := List.append_inj' (hl.trans hk.symm) rfl
          obtain rfl := (List.cons.inj hk).1
          exact ⟨fun l hl => hi l (List.mem_append_right _ hl), h1, h2⟩
    · rintro (rfl | ⟨-, init, last, hl, hi, h1, h2⟩)
      · exact ⟨by simp [under], splitC p, [], by rw [levels_iff, splitC_under]; rfl, hps, by simp, by simp⟩
      · rw [levels_iff] at hl
        refine ⟨by simp [under], splitC p ++ init, last, key init last hl.symm, fun l hl => ?_, h1, h2⟩
        rcases List.mem_append.1 hl with hl | hl
        · exact hps l hl
        · exact hi l hl

/-- C82, matching: behind a prefix (no wildcards, not beginning with '$' or a multi-byte character) any
filter matches any topic exactly if its levels match, whatever the topic begins with; there is no
panic. -/
theorem C82_matches (p : List Char) (hp : NoWildcards p) (hs : PlainStart p) (t f : List Char) :
    (matches_ (bytes (under p t)) (bytes (under p f)) = .ok true ↔ MatchesAny t f) ∧
    (matches_ (bytes (under p t)) (bytes (under p f)) = .ok false ↔ ¬ MatchesAny t f) := by
  have hm : MatchesAny (under p t) (under p f) ↔ MatchesAny t f := by
    rw [matchesAny_iff, matchesAny_iff, splitC_under, splitC_under, loop_prefix (splitC_plain hp)]
    constructor
    · rintro ⟨ts, he, h⟩
      rw [List.append_cancel_left he]; exact h
    · intro h; exact ⟨_, rfl, h⟩
  have hu := plainStart_under t hs
  have hd : ∀ r, under p t ≠ '$' :: r := fun r h => (hu _ _ h).2 rfl
  have := C41_matches_any (under p t) (under p f) fun c r h => (hu c r h).1
  rw [hm] at this
  exact ⟨this.1.trans ⟨(·.2), (⟨hd, ·⟩)⟩, this.2.trans (not_congr ⟨(·.2), (⟨hd, ·⟩)⟩)⟩

/-- C82: so topics and filters can be moved behind a prefix and back without a change, if the topic
begins with neither '$' nor a multi-byte character. -/
theorem C82_same (p : List Char) (hp : NoWildcards p) (hs : PlainStart p) (t f : List Char)
    (ht : PlainStart t) :
    matches_ (bytes (under p t)) (bytes (under p f)) = matches_ (bytes t) (bytes f) := by
  have h1 := C82_matches p hp hs t f
  have h2 := C41_matches_any t f fun c r h => (ht c r h).1
  have hd : ∀ r, t ≠ '$' :: r := fun r h => (ht _ _ h).2 rfl
  by_cases h : MatchesAny t f
  · rw [h1.1.2 h, h2.1.2 ⟨hd, h⟩]
  · rw [h1.2.2 h, h2.2.2 fun h' => h h'.2]

/-- C82, separation: a filter behind a prefix matches only topics behind the prefix, with one exception:
with "#" behind it, it also matches the prefix itself. -/
theorem C82_within (p : List Char) (hp : NoWildcards p) (hs : PlainStart p) (x f : List Char)
    (hf : f = [] ∨ valid_filter (bytes f) = .ok true) :
    matches_ (bytes x) (bytes (under p f)) = .ok true ↔
      (∃ t, x = under p t ∧ MatchesAny t f) ∨ (x = p ∧ f = ['#']) := by
  rw [matches_true_iff, splitC_under, loop_prefix (splitC_plain hp)]
  constructor
  · rintro ⟨-, ts, he, hm⟩
    by_cases h0 : ts = []
    · subst h0
      rw [List.append_nil] at he
      refine .inr ⟨splitC_inj he, ?_⟩
      cases hf' : splitC f with
      | nil => exact absurd hf' (splitC_ne_nil f)
      | cons l r =>
        rw [hf', LoopMatch] at hm
        rcases hm with rfl | ⟨_, _, h, -⟩
        · rcases hf with rfl | hf
          · simp [splitC] at hf'
          · obtain ⟨-, init, last, hl, hi, -⟩ := (C41_valid_filter f).1.1 hf
            rw [levels_iff, hf'] at hl
            cases init with
            | nil =>
              obtain ⟨rfl, rfl⟩ := List.cons.inj hl
              refine splitC_inj ?_
              rw [hf']; decide
            | cons a init =>
              obtain ⟨rfl, -⟩ := List.cons.inj hl
              exact absurd (.head _) (hi ['#'] (.head _)).1
        · cases h
    · obtain ⟨t, ht⟩ := splitC_surj h0 fun l hl =>
        (splitC_levels x).2.1 l (he ▸ List.mem_append_right _ hl)
      refine .inl ⟨t, splitC_inj ?_, ?_⟩
      · rw [splitC_under, ht, he]
      · rw [matchesAny_iff, ht]; exact hm
  · rintro (⟨t, rfl, hm⟩ | ⟨rfl, rfl⟩)
    · exact ⟨plainStart_under t hs, splitC t, splitC_under p t, (matchesAny_iff t f).1 hm⟩
    · exact ⟨hs, [], (List.append_nil _).symm, .inl rfl⟩

/-- C82, separation: of two different prefixes with equally many levels, filters behind the one never
match topics behind the other. -/
theorem C82_apart (p q : List Char) (hp : NoWildcards p)
    (hpq : p ≠ q) (hn : p.count '/' = q.count '/') (t f : List Char) :
    matches_ (bytes (under q t)) (bytes (under p f)) ≠ .ok true := by
  have hc : ∀ s : List Char, (splitC s).length = s.count '/' + 1 := by
    intro s
    induction s with
    | nil => rfl
    | cons c s ih =>
      rw [splitC]
      by_cases h : c = '/'
      · rw [if_pos h, List.length_cons, ih, h, List.count_cons_self]
      · rw [if_neg h, List.count_cons_of_ne h]
        cases hs : splitC s with
        | nil => exact absurd hs (splitC_ne_nil s)
        | cons l ls => rw [← ih, hs]; rfl
  rw [Ne, matches_true_iff, splitC_under, splitC_under, loop_prefix (splitC_plain hp)]
  rintro ⟨-, ts, he, -⟩
  exact hpq (splitC_inj (List.append_inj he (by rw [hc, hc, hn])).1.symm)

/-- C82, shared subscriptions: the filter of a shared subscription is valid exactly if what is behind
the group is valid or empty, and no topic is matched by it: a server has to take the prefix off. -/
theorem C82_shared (group f : List Char) (hg : NoWildcards group) :
    (valid_filter (bytes (shared group f)) = .ok true ↔ f = [] ∨ valid_filter (bytes f) = .ok true) ∧
    ∀ t, matches_ (bytes t) (bytes (shared group f)) ≠ .ok true := by
  have hw : NoWildcards "$share".toList := ⟨by decide, by decide⟩
  have hw2 : NoWildcards (under "$share".toList group) := by
    simp only [NoWildcards, under, List.mem_append, List.mem_cons, not_or]
    exact ⟨⟨hw.1, by decide, hg.1⟩, ⟨hw.2, by decide, hg.2⟩⟩
  refine ⟨(C82_valid _ hw2 f).2, fun t h => ?_⟩
  rw [shared, matches_true_iff, splitC_under, splitC_under, List.append_assoc,
    loop_prefix (splitC_plain hw)] at h
  obtain ⟨hs, ts, he, -⟩ := h
  have ht : t = '$' :: t.tail := by
    have h1 := (splitC_levels t).2.2
    rw [he, show splitC "$share".toList = ["$share".toList] by decide] at h1
    cases ts with
    | nil => rw [h1]; decide
    | cons y ys => rw [h1]; simp [List.intercalate]
  exact (hs _ _ ht).2 rfl

/-- Hypotheses are met. Behind "site/7" the filter "#" also matches what begins with '$' and what makes
`matches` panic alone; and it matches "site/7". -/
example : NoWildcards "site/7".toList ∧ PlainStart "site/7".toList ∧
    matches_ (bytes (under "site/7".toList "$SYS/x".toList)) (bytes (under "site/7".toList "#".toList)) =
      .ok true ∧
    matches_ (bytes (under "site/7".toList "é".toList)) (bytes (under "site/7".toList "#".toList)) =
      .ok true ∧
    matches_ (bytes "site/7".toList) (bytes (under "site/7".toList "#".toList)) = .ok true ∧
    matches_ (bytes "$SYS/x".toList) (bytes "#".toList) = .ok false ∧
    matches_ (bytes "é".toList) (bytes "#".toList) = .panic := by
  refine ⟨⟨by decide, by decide⟩, ?_, by decide +kernel, by decide +kernel, by decide +kernel,
    by decide +kernel, by decide +kernel⟩
  rintro c r ⟨⟩; decide

/-- "site/7" and "site/8" are such prefixes; and "+/t" is a filter with which a topic behind the one could
be reached if it were not behind the other. -/
example : "site/7".toList ≠ "site/8".toList ∧
    "site/7".toList.count '/' = "site/8".toList.count '/' ∧
    matches_ (bytes "8/t".toList) (bytes "+/t".toList) = .ok true := by
  refine ⟨by decide, by decide, by decide +kernel⟩

end Props
