import Verif.Spec.Route
import Verif.Props.Topic
import Verif.Props.Cover
/-
C74: the filters by which a topic name is found.
-/
namespace Props

open Mqtt Mqtt.Topic Spec Spec.Topic

theorem levelsMatch_filters : ∀ (ts fs : List (List Char)), LevelsMatch fs ts ↔ fs ∈ filtersFor ts
  | [], fs => by
    constructor
    · rintro (h | ⟨fs', ts', rest, rfl, h, ha⟩)
      · cases fs with
        | nil => simp [filtersFor]
        | cons _ _ => exact False.elim h
      · have : ts' = [] := (List.append_eq_nil_iff.1 h.symm).1
        subst this
        cases fs' with
        | nil => simp [filtersFor]
        | cons _ _ => exact False.elim ha
    · intro h
      simp only [filtersFor, List.mem_cons, List.not_mem_nil, or_false] at h
      rcases h with rfl | rfl
      · exact .inl trivial
      · exact .inr ⟨[], [], [], rfl, rfl, trivial⟩
  | t :: ts, fs => by
    have ih := fun fs => levelsMatch_filters ts fs
    constructor
    · rintro (h | ⟨fs', ts', rest, rfl, h, ha⟩)
      · cases fs with
        | nil => exact False.elim h
        | cons f fs =>
          obtain ⟨h1, h2⟩ := h
          have h3 := (ih fs).1 (.inl h2)
          rcases h1 with rfl | rfl <;> simp [filtersFor, h3]
      · cases fs' with
        | nil => simp [filtersFor]
        | cons f fs' =>
          cases ts' with
          | nil => exact False.elim ha
          | cons t' ts' =>
            simp only [List.cons_append, List.cons.injEq] at h
            obtain ⟨rfl, rfl⟩ := h
            obtain ⟨h1, h2⟩ := ha
            have h3 := (ih (fs' ++ [['#']])).1 (.inr ⟨fs', ts', rest, rfl, rfl, h2⟩)
            rcases h1 with rfl | rfl <;> simp [filtersFor, h3]
    · intro h
      simp only [filtersFor, List.mem_cons, List.mem_append, List.mem_map] at h
      have step : ∀ f g, LevelOk f t → g ∈ filtersFor ts → LevelsMatch (f :: g) (t :: ts) := by
        intro f g hf hg
        rcases (ih g).2 hg with h | ⟨fs', ts', rest, rfl, rfl, ha⟩
        · exact .inl ⟨hf, h⟩
        · exact .inr ⟨f :: fs', t :: ts', rest, rfl, rfl, hf, ha⟩
      rcases h with rfl | ⟨g, hg, rfl⟩ | ⟨g, hg, rfl⟩
      · exact .inr ⟨[], [], t :: ts, rfl, rfl, trivial⟩
      · exact step _ _ (.inr rfl) hg
      · exact step _ _ (.inl rfl) hg

theorem filters_length : ∀ ts, (filtersFor ts).length = 3 * 2 ^ ts.length - 1
  | [] => rfl
  | t :: ts => by
    have := filters_length ts
    have h2 : 1 ≤ 2 ^ ts.length := Nat.one_le_two_pow
    simp only [filtersFor, List.length_cons, List.length_append, List.length_map, this, Nat.pow_succ]
    omega

theorem filters_nodup : ∀ ts : List (List Char), (∀ t ∈ ts, NoWildcards t) → (filtersFor ts).Nodup
  | [], _ => by simp [filtersFor]
  | t :: ts, h => by
    have ih := filters_nodup ts fun x hx => h x (.tail _ hx)
    obtain ⟨hp, hh⟩ := h t (.head _)
    have hmap : ∀ x : List Char, ((filtersFor ts).map (x :: ·)).Nodup := by
      intro x
      refine List.pairwise_map.2 (ih.imp ?_)
      intro a b hab e
      exact hab (List.cons.inj e).2
    rw [filtersFor, List.nodup_cons, List.nodup_append]
    refine ⟨?_, hmap _, hmap _, ?_⟩
    · intro hm
      rcases List.mem_append.1 hm with hm | hm
      · obtain ⟨g, -, e⟩ := List.mem_map.1 hm
        exact hh (by rw [(List.cons.inj e).1]; simp)
      · obtain ⟨g, -, e⟩ := List.mem_map.1 hm
        simp at e
    · intro a ha b hb e
      obtain ⟨g, -, rfl⟩ := List.mem_map.1 ha
      obtain ⟨g', -, rfl⟩ := List.mem_map.1 hb
      exact hp (by rw [(List.cons.inj e).1]; simp)

theorem filters_noSlash : ∀ (ts fs : List (List Char)), (∀ t ∈ ts, '/' ∉ t) → fs ∈ filtersFor ts →
    ∀ f ∈ fs, '/' ∉ f
  | [], fs, _, h => by
    simp only [filtersFor, List.mem_cons, List.not_mem_nil, or_false] at h
    rcases h with rfl | rfl <;> simp
  | t :: ts, fs, ht, h => by
    have ih := fun fs => filters_noSlash ts fs fun x hx => ht x (.tail _ hx)
    simp only [filtersFor, List.mem_cons, List.mem_append, List.mem_map] at h
    rcases h with rfl | ⟨g, hg, rfl⟩ | ⟨g, hg, rfl⟩
    · simp
    · intro f hf
      cases hf with
      | head => exact ht t (.head _)
      | tail _ hf => exact ih g hg f hf
    · intro f hf
      cases hf with
      | head => simp
      | tail _ hf => exact ih g hg f hf

theorem filters_good : ∀ (ts fs : List (List Char)), (∀ t ∈ ts, NoWildcards t) →
    fs ∈ filtersFor ts → fs ≠ [] → ∃ init last, fs = init ++ [last] ∧
      (∀ l ∈ init, '#' ∉ l ∧ ('+' ∈ l → l = ['+'])) ∧
      ('#' ∈ last → last = ['#']) ∧ ('+' ∈ last → last = ['+'])
  | [], fs, _, h, h0 => by
    simp only [filtersFor, List.mem_cons, List.not_mem_nil, or_false] at h
    rcases h with rfl | rfl
    · exact absurd rfl h0
    · exact ⟨[], ['#'], rfl, by simp, fun _ => rfl, by simp⟩
  | t :: ts, fs, ht, h, _ => by
    have ih := fun fs => filters_good ts fs fun x hx => ht x (.tail _ hx)
    simp only [filtersFor, List.mem_cons, List.mem_append, List.mem_map] at h
    have step : ∀ f g, '#' ∉ f → ('+' ∈ f → f = ['+']) → g ∈ filtersFor ts →
        ∃ init last, f :: g = init ++ [last] ∧ (∀ l ∈ init, '#' ∉ l ∧ ('+' ∈ l → l = ['+'])) ∧
        ('#' ∈ last → last = ['#']) ∧ ('+' ∈ last → last = ['+']) := by
      intro f g h1 h2 hg
      by_cases hg0 : g = []
      · subst hg0
        exact ⟨[], f, rfl, by simp, fun h => absurd h h1, h2⟩
      · obtain ⟨init, last, rfl, h3, h4⟩ := ih g hg hg0
        refine ⟨f :: init, last, rfl, ?_, h4⟩
        intro l hl
        cases hl with
        | head => exact ⟨h1, h2⟩
        | tail _ hl => exact h3 l hl
    obtain ⟨hp, hh⟩ := ht t (.head _)
    rcases h with rfl | ⟨g, hg, rfl⟩ | ⟨g, hg, rfl⟩
    · exact ⟨[], ['#'], rfl, by simp, fun _ => rfl, by simp⟩
    · exact step _ _ hh (fun h => absurd h hp) hg
    · exact step _ _ (by simp) (fun _ => rfl) hg

theorem filters_ne_nil {ts fs : List (List Char)} (h : fs ∈ filtersFor ts) (h0 : ts ≠ []) :
    fs ≠ [] := by
  cases ts with
  | nil => exact absurd rfl h0
  | cons t ts =>
    simp only [filtersFor, List.mem_cons, List.mem_append, List.mem_map] at h
    rcases h with rfl | ⟨g, -, rfl⟩ | ⟨g, -, rfl⟩ <;> simp

theorem filters_empty {ts : List (List Char)} (h : [[]] ∈ filtersFor ts) : ts = [[]] := by
  cases ts with
  | nil => simp [filtersFor] at h
  | cons t ts =>
    simp only [filtersFor, List.mem_cons, List.mem_append, List.mem_map] at h
    rcases h with h | ⟨g, hg, e⟩ | ⟨g, -, e⟩
    · simp at h
    · obtain ⟨rfl, rfl⟩ := List.cons.inj e
      cases ts with
      | nil => rfl
      | cons x xs => exact absurd rfl (filters_ne_nil hg (by simp))
    · simp at e

theorem intercalate_nil {ls : List (List Char)} (h0 : ls ≠ []) (h : List.intercalate ['/'] ls = []) :
    ls = [[]] := by
  match ls with
  | [] => exact absurd rfl h0
  | [l] => simp_all [List.intercalate]
  | a :: b :: r => simp [List.intercalate, List.intersperse] at h

theorem levels_noWildcards {t : List Char} {ts : List (List Char)} (h : Levels t ts)
    (hw : NoWildcards t) : ∀ l ∈ ts, NoWildcards l := by
  intro l hl
  obtain ⟨-, -, rfl⟩ := h
  exact ⟨fun hc => hw.1 (mem_intercalate hl hc), fun hc => hw.2 (mem_intercalate hl hc)⟩

/-- C74: the valid filters that match a topic name (not empty, and not beginning with '$' or a
multi-byte character) are exactly the candidates: each level as it is or "+", and "#" after any
number of levels. -/
theorem C74_candidates (t : List Char) (ts : List (List Char)) (hl : Levels t ts)
    (hw : NoWildcards t) (h0 : t ≠ []) (ha : ∀ c r, t = c :: r → c.toNat < 0x80 ∧ c ≠ '$')
    (f : List Char) :
    f ∈ candidates ts ↔
      valid_filter (bytes f) = .ok true ∧ matches_ (bytes t) (bytes f) = .ok true := by
  have hnw := levels_noWildcards hl hw
  rw [(C41_valid_filter f).1]
  constructor
  · intro h
    obtain ⟨fs, hfs, rfl⟩ := List.mem_map.1 h
    have hne := filters_ne_nil hfs hl.1
    have hlev : Levels (List.intercalate ['/'] fs) fs :=
      ⟨hne, filters_noSlash ts fs hl.2.1 hfs, rfl⟩
    have hv : ValidFilter (List.intercalate ['/'] fs) := by
      obtain ⟨init, last, rfl, h1, h2, h3⟩ := filters_good ts fs hnw hfs hne
      refine ⟨fun he => ?_, init, last, hlev, h1, h2, h3⟩
      have := intercalate_nil hne he
      rw [this] at hfs
      have := filters_empty hfs
      rw [hl.2.2, this] at h0
      exact h0 rfl
    refine ⟨hv, (C41_matches_partial t _ hw hv fun c r h => (ha c r h).1).1.2
      ⟨fun r h => (ha _ r h).2 rfl, fs, ts, hlev, hl, (levelsMatch_filters ts fs).2 hfs⟩⟩
  · rintro ⟨hv, hm⟩
    obtain ⟨-, fs, ts', h1, h2, h3⟩ :=
      (C41_matches_partial t f hw hv fun c r h => (ha c r h).1).1.1 hm
    have : ts' = ts := ((levels_iff t ts').1 h2).trans ((levels_iff t ts).1 hl).symm
    subst this
    rw [h1.2.2]
    exact List.mem_map.2 ⟨fs, (levelsMatch_filters _ fs).1 h3, rfl⟩

/-- C74: they are all different, and there are 3 * 2 ^ n - 1 of them for a topic name of n levels. -/
theorem C74_count (t : List Char) (ts : List (List Char)) (hl : Levels t ts) (hw : NoWildcards t) :
    (candidates ts).Nodup ∧ (candidates ts).length = 3 * 2 ^ ts.length - 1 := by
  refine ⟨?_, by rw [candidates, List.length_map, filters_length]⟩
  refine List.pairwise_map.2 ((filters_nodup ts (levels_noWildcards hl hw)).imp_of_mem ?_)
  intro a b hma hmb hab e
  have h1 : Levels (List.intercalate ['/'] a) a :=
    ⟨filters_ne_nil hma hl.1, filters_noSlash ts a hl.2.1 hma, rfl⟩
  have h2 : Levels (List.intercalate ['/'] b) b :=
    ⟨filters_ne_nil hmb hl.1, filters_noSlash ts b hl.2.1 hmb, rfl⟩
  refine hab (((levels_iff _ a).1 h1).trans (Eq.trans ?_ ((levels_iff _ b).1 h2).symm))
  rw [e]

/-- C74: so the subscriptions in any table that have to be served are found by looking up the
candidates, and nothing else is found. -/
theorem C74_lookup (t : List Char) (ts : List (List Char)) (hl : Levels t ts) (hw : NoWildcards t)
    (h0 : t ≠ []) (ha : ∀ c r, t = c :: r → c.toNat < 0x80 ∧ c ≠ '$') (subs : List (List Char))
    (hs : ∀ f ∈ subs, valid_filter (bytes f) = .ok true) :
    (subs.filter fun f => decide (f ∈ candidates ts)) =
      subs.filter fun f => decide (matches_ (bytes t) (bytes f) = .ok true) := by
  refine List.filter_congr fun f hf => ?_
  have := C74_candidates t ts hl hw h0 ha f
  simp [this, hs f hf]

/-- "a/b" has 11 of them. -/
example : candidates ["a".toList, "b".toList] =
    ["#", "a/#", "a/b", "a/b/#", "a/+", "a/+/#", "+/#", "+/b", "+/b/#", "+/+", "+/+/#"].map
      String.toList := by decide

end Props
