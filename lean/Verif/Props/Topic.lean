import Verif.Proofs.Topic
/-
C41: topic filter validity and matching (/repo/mod.rs). Texts are lists of characters
(`Spec.Topic`), handed to the functions as their UTF-8 bytes.
-/
set_option linter.unusedSimpArgs false
namespace Props

open Mqtt Mqtt.Topic Spec.Topic

/-- C41: `has_wildcards` is true exactly when '+' or '#' occurs, and `valid_topic` exactly when
neither does. -/
theorem C41_wildcards (s : List Char) :
    (has_wildcards (bytes s) = true ↔ '+' ∈ s ∨ '#' ∈ s) ∧
    (valid_topic (bytes s) = true ↔ NoWildcards s) := by
  constructor
  · rw [has_wildcards, Bool.or_eq_true, ascii_plus.contains, ascii_hash.contains]
  · rw [valid_topic]
    split
    · rename_i h
      rw [Bool.or_eq_true, ascii_plus.contains, ascii_hash.contains] at h
      rcases h with h | h <;> simp [NoWildcards, h]
    · rename_i h
      rw [Bool.or_eq_true, ascii_plus.contains, ascii_hash.contains, not_or] at h
      simp [NoWildcards, h]

/-- C41: `valid_filter` returns (never panics) and accepts exactly the valid filters. -/
theorem C41_valid_filter (s : List Char) :
    (valid_filter (bytes s) = .ok true ↔ ValidFilter s) ∧
    (valid_filter (bytes s) = .ok false ↔ ¬ ValidFilter s) := by
  obtain ⟨r, h1, h2⟩ := valid_filter_spec s
  rw [h1, ← h2]
  cases r <;> simp

/-- C41: on a topic name without wildcards that does not begin with a multi-byte character, and
a valid filter, `matches` is true exactly when the topic does not begin with '$' and the filter
matches it. `_partial`: topics that begin with a multi-byte character make it panic
(`C41_matches_panics`), whatever the filter. -/
theorem C41_matches_partial (topic filter : List Char) (ht : NoWildcards topic)
    (hf : ValidFilter filter) (ha : ∀ c r, topic = c :: r → c.toNat < 0x80) :
    (matches_ (bytes topic) (bytes filter) = .ok true ↔
      (∀ r, topic ≠ '$' :: r) ∧ Matches topic filter) ∧
    (matches_ (bytes topic) (bytes filter) = .ok false ↔
      ¬ ((∀ r, topic ≠ '$' :: r) ∧ Matches topic filter)) := by
  have hm : (matchLoop ((splitC filter).map bytes) ((splitC topic).map bytes) = true)
      ↔ Matches topic filter := by
    rw [matchLoop_iff, loopMatch_levels]
    · constructor
      · intro h; exact ⟨_, _, splitC_levels _, splitC_levels _, h⟩
      · rintro ⟨fs, ts, h1, h2, h3⟩
        rw [levels_iff] at h1 h2
        rw [← h1, ← h2]; exact h3
    · intro i l he f hfi hh
      obtain ⟨-, i', l', hl, hi, -⟩ := hf
      rw [levels_iff, he] at hl
      obtain ⟨rfl, -⟩ := List.append_inj' hl rfl
      exact (hi f hfi).1 (by simp [hh])
    · rintro t hts rfl
      apply ht.2
      rw [(splitC_levels topic).2.2]
      exact mem_intercalate hts (.head _)
  rw [matches_spec]
  cases topic with
  | nil =>
    simp only [Out.ok.injEq, ne_eq, reduceCtorEq, not_false_eq_true, implies_true, true_and,
      ← hm, Bool.not_eq_true, and_self]
  | cons c s =>
    simp only [if_pos (ha c s rfl)]
    by_cases hc : c = '$'
    · subst hc
      have : ¬ ∀ r, '$' :: s ≠ '$' :: r := fun h => h s rfl
      rw [if_pos rfl]
      simp [this]
    · have : ∀ r, c :: s ≠ '$' :: r := fun r h => hc (List.cons.inj h).1
      rw [if_neg hc]
      simp only [Out.ok.injEq, ← hm, Bool.not_eq_true, this, implies_true, true_and, and_self,
        ne_eq, not_false_eq_true]

/-- C41, for every topic and every filter, valid or not: unless it panics (`C41_matches_panics`),
`matches` is true exactly when the topic does not begin with '$' and `MatchesAny` holds. -/
theorem C41_matches_any (topic filter : List Char) (ha : ∀ c r, topic = c :: r → c.toNat < 0x80) :
    (matches_ (bytes topic) (bytes filter) = .ok true ↔
      (∀ r, topic ≠ '$' :: r) ∧ MatchesAny topic filter) ∧
    (matches_ (bytes topic) (bytes filter) = .ok false ↔
      ¬ ((∀ r, topic ≠ '$' :: r) ∧ MatchesAny topic filter)) := by
  have hm : (matchLoop ((splitC filter).map bytes) ((splitC topic).map bytes) = true)
      ↔ MatchesAny topic filter := by
    rw [matchLoop_iff, loopMatch_any]
    constructor
    · rintro ⟨fs, ts, frest, trest, h1, h2, h⟩
      exact ⟨fs, ts, frest, trest, (levels_iff _ _).2 h1.symm, (levels_iff _ _).2 h2.symm, h⟩
    · rintro ⟨fs, ts, frest, trest, h1, h2, h⟩
      exact ⟨fs, ts, frest, trest, ((levels_iff _ _).1 h1).symm, ((levels_iff _ _).1 h2).symm, h⟩
  rw [matches_spec]
  cases topic with
  | nil =>
    simp only [Out.ok.injEq, ne_eq, reduceCtorEq, not_false_eq_true, implies_true, true_and,
      ← hm, Bool.not_eq_true, and_self]
  | cons c s =>
    simp only [if_pos (ha c s rfl)]
    by_cases hc : c = '$'
    · subst hc
      have : ¬ ∀ r, '$' :: s ≠ '$' :: r := fun h => h s rfl
      rw [if_pos rfl]
      simp [this]
    · have : ∀ r, c :: s ≠ '$' :: r := fun r h => hc (List.cons.inj h).1
      rw [if_neg hc]
      simp only [Out.ok.injEq, ← hm, Bool.not_eq_true, this, implies_true, true_and, and_self,
        ne_eq, not_false_eq_true]

/-- C41: `matches` panics exactly on the topics that begin with a multi-byte character. -/
theorem C41_matches_panics (topic filter : List Char) :
    matches_ (bytes topic) (bytes filter) = .panic ↔ ∃ c r, topic = c :: r ∧ 0x80 ≤ c.toNat := by
  rw [matches_spec]
  cases topic with
  | nil => simp
  | cons c s =>
    simp only [List.cons.injEq]
    by_cases h : c.toNat < 0x80
    · rw [if_pos h]
      constructor
      · intro h'; split at h' <;> simp at h'
      · rintro ⟨_, _, ⟨rfl, rfl⟩, h'⟩; omega
    · rw [if_neg h]
      simp only [true_iff]
      exact ⟨c, s, ⟨rfl, rfl⟩, by omega⟩

/-- C41: every topic name is matched by itself used as a filter and by "#", unless it begins
with '$' (or with a multi-byte character). -/
theorem C41_matches_self (topic : List Char) (ht : NoWildcards topic) (h0 : topic ≠ [])
    (ha : ∀ c r, topic = c :: r → c.toNat < 0x80 ∧ c ≠ '$') :
    matches_ (bytes topic) (bytes topic) = .ok true ∧
    matches_ (bytes topic) (bytes ['#']) = .ok true := by
  have hd : ∀ r, topic ≠ '$' :: r := fun r h => (ha _ _ h).2 rfl
  have nw : ∀ l ∈ splitC topic, '#' ∉ l ∧ '+' ∉ l := by
    intro l hl
    constructor
    · intro hm; apply ht.2; rw [(splitC_levels topic).2.2]; exact mem_intercalate hl hm
    · intro hm; apply ht.1; rw [(splitC_levels topic).2.2]; exact mem_intercalate hl hm
  constructor
  · refine (C41_matches_partial topic topic ht ?_ (fun c r h => (ha c r h).1)).1.2
      ⟨hd, _, _, splitC_levels _, splitC_levels _, .inl ?_⟩
    · have hne := splitC_ne_nil topic
      refine ⟨h0, (splitC topic).dropLast, (splitC topic).getLast hne, ?_, ?_, ?_⟩
      · rw [List.dropLast_concat_getLast hne]; exact splitC_levels topic
      · intro l hl
        have := nw l (List.dropLast_subset _ hl)
        exact ⟨this.1, fun h => absurd h this.2⟩
      · have := nw _ (List.getLast_mem hne)
        exact ⟨fun h => absurd h this.1, fun h => absurd h this.2⟩
    · generalize splitC topic = ls
      induction ls with
      | nil => trivial
      | cons l ls ih => exact ⟨.inr rfl, ih⟩
  · refine (C41_matches_partial topic ['#'] ht ?_ (fun c r h => (ha c r h).1)).1.2
      ⟨hd, [['#']], _, (levels_iff _ _).2 (by decide), splitC_levels _,
        .inr ⟨[], [], _, rfl, rfl, trivial⟩⟩
    exact ⟨by simp, [], ['#'], (levels_iff _ _).2 (by decide), by simp, by simp, by simp⟩

/-- C41, deviations from MQTT 5 section 4.7: "$SYS/a" is refused for the filter "$SYS/#" (the
standard only bars filters that begin with a wildcard), and the empty topic name is accepted. -/
theorem C41_deviation :
    matches_ (bytes "$SYS/a".toList) (bytes "$SYS/#".toList) = .ok false ∧
    Matches "$SYS/a".toList "$SYS/#".toList ∧
    valid_topic (bytes []) = true := by
  refine ⟨by decide +kernel, ⟨["$SYS".toList, ['#']], ["$SYS".toList, ['a']],
    (levels_iff _ _).2 (by decide), (levels_iff _ _).2 (by decide),
    .inr ⟨["$SYS".toList], ["$SYS".toList], [['a']], rfl, rfl, .inr rfl, trivial⟩⟩, rfl⟩

/-- Hypotheses are met: "a/é/c" and "a/+/#". -/
example : NoWildcards "a/é/c".toList ∧ ValidFilter "a/+/#".toList ∧
    (∀ c r, "a/é/c".toList = c :: r → c.toNat < 0x80 ∧ c ≠ '$') ∧
    matches_ (bytes "a/é/c".toList) (bytes "a/+/#".toList) = .ok true := by
  refine ⟨by unfold NoWildcards; decide, ⟨by decide, [['a'], ['+']], ['#'], (levels_iff _ _).2 (by decide),
    by decide, by decide, by decide⟩, ?_, by decide +kernel⟩
  rintro c r ⟨⟩; decide

/-- "a/#/b", not a valid filter, matches the topic "a/c"; the topic "#" is not matched by "+". -/
example : matches_ (bytes "a/c".toList) (bytes "a/#/b".toList) = .ok true ∧
    matches_ (bytes "#".toList) (bytes "+".toList) = .ok false := by
  decide +kernel

/-- "a/#/b" is not a valid filter, "a/b" does not match "a/b/c", "é" panics. -/
example : ¬ ValidFilter "a/#/b".toList ∧
    matches_ (bytes "a/b".toList) (bytes "a/b/c".toList) = .ok false ∧
    matches_ (bytes "é".toList) (bytes "#".toList) = .panic := by
  refine ⟨(C41_valid_filter _).2.1 (by decide +kernel), by decide +kernel,
    (C41_matches_panics _ _).2 ⟨_, _, rfl, by decide⟩⟩

end Props
