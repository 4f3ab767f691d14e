import Verif.Props.Topic
/-
C62: `matches` used to compare two filters (/repo/mod.rs:92-97 says that it can be).
-/
set_option linter.unusedSimpArgs false
namespace Props

open Mqtt Mqtt.Topic Spec.Topic

namespace Cover

theorem matches_true_iff (t f : List Char) :
    matches_ (bytes t) (bytes f) = .ok true ↔
      (∀ c r, t = c :: r → c.toNat < 0x80 ∧ c ≠ '$') ∧ LoopMatch (splitC f) (splitC t) := by
  rw [matches_spec, ← matchLoop_iff]
  cases t with
  | nil => simp
  | cons c s =>
    simp only [List.cons.injEq]
    by_cases h : c.toNat < 0x80
    · rw [if_pos h]
      by_cases hc : c = '$'
      · rw [if_pos hc]
        simp [hc]
      · rw [if_neg hc]
        constructor
        · intro h'
          exact ⟨by rintro _ _ ⟨rfl, -⟩; exact ⟨h, hc⟩, by simpa using h'⟩
        · intro h'; simp [h'.2]
    · rw [if_neg h]
      constructor
      · simp
      · intro h'; exact absurd (h'.1 c s ⟨rfl, rfl⟩).1 h

theorem loop_trans : ∀ {gs fs ts : List (List Char)},
    LoopMatch gs fs → LoopMatch fs ts → LoopMatch gs ts
  | [], fs, ts, h1, h2 => by
    rw [LoopMatch] at h1
    subst h1
    exact h2
  | g :: gs, fs, ts, h1, h2 => by
    rw [LoopMatch] at h1
    rw [LoopMatch]
    rcases h1 with rfl | ⟨f, fs', rfl, hf, hl, h1⟩
    · exact .inl rfl
    · rw [LoopMatch] at h2
      rcases h2 with rfl | ⟨t, ts', rfl, ht, hl2, h2⟩
      · exact absurd rfl hf
      · refine .inr ⟨t, ts', rfl, ht, ?_, loop_trans h1 h2⟩
        rcases hl with rfl | rfl
        · exact .inl rfl
        · exact hl2

/-- `f` with a fresh level in the place of '+'. -/
def fill (x f : List Char) : List Char := if f = ['+'] then x else f

theorem levelOk_fill {x g f : List Char} (hg : g ≠ x) (h : LevelOk g (fill x f)) : LevelOk g f := by
  unfold fill at h
  split at h
  · rename_i e
    subst e
    rcases h with rfl | rfl
    · exact .inl rfl
    · exact absurd rfl hg
  · exact h

theorem complete_exact {x : List Char} : ∀ {gs fs : List (List Char)}, x ∉ gs → ['#'] ∉ fs →
    LoopMatch gs (fs.map (fill x)) → LoopMatch gs fs
  | [], fs, _, _, h => by
    rw [LoopMatch] at h ⊢
    simpa using h
  | g :: gs, fs, hx, hf, h => by
    rw [LoopMatch] at h ⊢
    rcases h with rfl | ⟨t, ts, he, ht, hl, h⟩
    · exact .inl rfl
    · cases fs with
      | nil => simp at he
      | cons f fs =>
        simp only [List.map_cons, List.cons.injEq] at he
        obtain ⟨rfl, rfl⟩ := he
        simp only [List.mem_cons, not_or] at hx hf
        exact .inr ⟨f, fs, rfl, fun e => hf.1 e.symm, levelOk_fill (fun e => hx.1 e.symm) hl,
          complete_exact hx.2 hf.2 h⟩

theorem complete_hash {x : List Char} : ∀ {gs fs : List (List Char)} {m : Nat}, x ∉ gs →
    ['#'] ∉ fs → gs.length < m → LoopMatch gs (fs.map (fill x) ++ List.replicate m x) →
    LoopMatch gs (fs.map (fill x)) → LoopMatch gs (fs ++ [['#']])
  | [], fs, m, _, _, hm, h, _ => by
    rw [LoopMatch] at h
    obtain ⟨-, h⟩ := List.append_eq_nil_iff.1 h
    have := congrArg List.length h
    simp at this
    omega
  | g :: gs, fs, m, hx, hf, hm, h, h' => by
    rw [LoopMatch] at h h' ⊢
    by_cases hg : g = ['#']
    · exact .inl hg
    · rcases h with h | ⟨t, ts, he, ht, hl, h⟩
      · exact absurd h hg
      rcases h' with h' | ⟨t', ts', he', -, -, h'⟩
      · exact absurd h' hg
      cases fs with
      | nil => simp at he'
      | cons f fs =>
        simp only [List.map_cons, List.cons_append, List.cons.injEq] at he he'
        obtain ⟨rfl, rfl⟩ := he
        obtain ⟨rfl, rfl⟩ := he'
        simp only [List.mem_cons, not_or] at hx hf
        simp only [List.length_cons] at hm
        exact .inr ⟨f, fs ++ [['#']], rfl, fun e => hf.1 e.symm,
          levelOk_fill (fun e => hx.1 e.symm) hl, complete_hash hx.2 hf.2 (by omega) h h'⟩

theorem complete_all {x : List Char} {gs : List (List Char)} {m : Nat} (hx : x ∉ gs)
    (hm : gs.length < m) (h : LoopMatch gs (List.replicate m x)) (h' : LoopMatch gs [x]) :
    LoopMatch gs [['#']] ∨ ∃ r, gs = ['+'] :: ['#'] :: r := by
  cases gs with
  | nil => simp [LoopMatch] at h'
  | cons g gs =>
    by_cases hg : g = ['#']
    · exact .inl (by rw [LoopMatch]; exact .inl hg)
    · refine .inr ?_
      simp only [List.mem_cons, not_or] at hx
      rw [LoopMatch] at h h'
      rcases h with h | ⟨t, ts, he, -, -, h⟩
      · exact absurd h hg
      rcases h' with h' | ⟨t', ts', he', -, hl, h'⟩
      · exact absurd h' hg
      obtain ⟨rfl, rfl⟩ := List.cons.inj he'
      rcases hl with rfl | rfl
      · cases gs with
        | nil =>
          rw [LoopMatch] at h
          subst h
          have := congrArg List.length he
          simp at this hm
          omega
        | cons g' gs =>
          rw [LoopMatch] at h'
          rcases h' with rfl | ⟨_, _, h', -⟩
          · exact ⟨gs, rfl⟩
          · simp at h'
      · exact absurd rfl hx.1

theorem mem_of_intercalate {c : Char} : ∀ {ls : List (List Char)},
    c ∈ List.intercalate ['/'] ls → c = '/' ∨ ∃ l ∈ ls, c ∈ l
  | [], h => by simp [List.intercalate] at h
  | [x], h => by
    exact .inr ⟨x, .head _, by simpa [List.intercalate, List.intersperse] using h⟩
  | x :: y :: ls, h => by
    have he : List.intercalate ['/'] (x :: y :: ls) = x ++ '/' :: List.intercalate ['/'] (y :: ls) := by
      simp [List.intercalate, List.intersperse]
    rw [he, List.mem_append, List.mem_cons] at h
    rcases h with h | h | h
    · exact .inr ⟨x, .head _, h⟩
    · exact .inl h
    · rcases mem_of_intercalate h with h | ⟨l, h1, h2⟩
      · exact .inl h
      · exact .inr ⟨l, .tail _ h1, h2⟩

/-- The first character of a text is '/' or that of the first level. -/
theorem first_char (l : List Char) (ls : List (List Char)) (c : Char) (r : List Char)
    (h : List.intercalate ['/'] (l :: ls) = c :: r) : c = '/' ∨ ∃ r', l = c :: r' := by
  cases l with
  | cons d l =>
    cases ls with
    | nil =>
      simp [List.intercalate, List.intersperse] at h
      exact .inr ⟨l, by rw [h.1]⟩
    | cons y ls =>
      simp [List.intercalate, List.intersperse] at h
      exact .inr ⟨l, by rw [h.1]⟩
  | nil =>
    cases ls with
    | nil => simp [List.intercalate, List.intersperse] at h
    | cons y ls =>
      simp [List.intercalate, List.intersperse] at h
      exact .inl h.1.symm

/-- The text with the given levels. -/
def join (ls : List (List Char)) : List Char := List.intercalate ['/'] ls

theorem splitC_join {ls : List (List Char)} (h0 : ls ≠ []) (h : ∀ l ∈ ls, '/' ∉ l) :
    splitC (join ls) = ls := ((levels_iff _ _).1 ⟨h0, h, rfl⟩).symm

/-- The levels of a topic that can be used as a witness. -/
structure Usable (ls : List (List Char)) : Prop where
  level : ∀ l ∈ ls, '/' ∉ l ∧ '+' ∉ l ∧ '#' ∉ l
  first : ∃ l r, ls = l :: r ∧ ∀ c s, l = c :: s → c.toNat < 0x80 ∧ c ≠ '$'

theorem Usable.use {ls : List (List Char)} (h : Usable ls) :
    valid_topic (bytes (join ls)) = true ∧ splitC (join ls) = ls ∧
      ∀ c r, join ls = c :: r → c.toNat < 0x80 ∧ c ≠ '$' := by
  obtain ⟨l, r, rfl, hl⟩ := h.first
  refine ⟨(C41_wildcards _).2.2 ⟨fun hm => ?_, fun hm => ?_⟩,
    splitC_join (by simp) fun l hl => (h.level l hl).1, fun c s he => ?_⟩
  · rcases mem_of_intercalate hm with hm | ⟨l, h1, h2⟩
    · exact absurd hm (by decide)
    · exact (h.level l h1).2.1 h2
  · rcases mem_of_intercalate hm with hm | ⟨l, h1, h2⟩
    · exact absurd hm (by decide)
    · exact (h.level l h1).2.2 h2
  · rcases first_char _ _ _ _ he with rfl | ⟨r', rfl⟩
    · decide
    · exact hl _ _ rfl

theorem fresh (gs : List (List Char)) :
    ∃ x : List Char, x ∉ gs ∧ x ≠ [] ∧ ∀ c ∈ x, c = 'x' := by
  refine ⟨List.replicate ((gs.map List.length).sum + 1) 'x', ?_, by simp [List.replicate_succ], ?_⟩
  · intro h
    have key : ∀ {l : List Char} {gs : List (List Char)}, l ∈ gs →
        l.length ≤ (gs.map List.length).sum := by
      intro l gs hl
      induction gs with
      | nil => simp at hl
      | cons g gs ih =>
        simp only [List.map_cons, List.sum_cons]
        rcases List.mem_cons.1 hl with rfl | hl
        · omega
        · have := ih hl; omega
    have := key h
    simp at this
    omega
  · intro c hc
    exact (List.mem_replicate.1 hc).2

theorem good_x {x : List Char} (hx : ∀ c ∈ x, c = 'x') :
    ('/' ∉ x ∧ '+' ∉ x ∧ '#' ∉ x) ∧ ∀ c s, x = c :: s → c.toNat < 0x80 ∧ c ≠ '$' := by
  refine ⟨⟨fun h => absurd (hx _ h) (by decide), fun h => absurd (hx _ h) (by decide),
    fun h => absurd (hx _ h) (by decide)⟩, ?_⟩
  rintro c s rfl
  rw [hx c (.head _)]
  decide

theorem loop_fill {x : List Char} (hx : x ≠ ['#']) (rest : List (List Char)) :
    ∀ {fs : List (List Char)}, ['#'] ∉ fs →
      LoopMatch fs (fs.map (fill x)) ∧
      LoopMatch (fs ++ [['#']]) (fs.map (fill x) ++ rest)
  | [], _ => by
    constructor
    · simp [LoopMatch]
    · simp [LoopMatch]
  | f :: fs, h => by
    simp only [List.mem_cons, not_or] at h
    have ih := loop_fill hx rest h.2
    have hl : LevelOk f (fill x f) ∧ fill x f ≠ ['#'] := by
      unfold fill
      split
      · rename_i e
        exact ⟨.inl e, hx⟩
      · exact ⟨.inr rfl, fun e => h.1 e.symm⟩
    constructor
    · rw [LoopMatch]
      exact .inr ⟨_, _, rfl, hl.2, hl.1, ih.1⟩
    · rw [List.cons_append, LoopMatch]
      exact .inr ⟨_, _, rfl, hl.2, hl.1, ih.2⟩

/-- The levels of a filter without '#', with '+' filled in, and more of the filling behind. -/
theorem good_fill {x : List Char} (hx : ∀ c ∈ x, c = 'x') (n : Nat) {f : List Char}
    {fs post : List (List Char)} (he : splitC f = fs ++ post) (h0 : fs ≠ [])
    (hl : ∀ l ∈ fs, '#' ∉ l ∧ ('+' ∈ l → l = ['+']))
    (ha : ∀ c r, f = c :: r → c.toNat < 0x80 ∧ c ≠ '$') :
    Usable (fs.map (fill x) ++ List.replicate n x) := by
  have hs := splitC_levels f
  constructor
  · intro l hl'
    rcases List.mem_append.1 hl' with h | h
    · obtain ⟨k, hk, rfl⟩ := List.mem_map.1 h
      unfold fill
      split
      · exact (good_x hx).1
      · rename_i hn
        exact ⟨hs.2.1 k (he ▸ List.mem_append_left _ hk), fun h => hn ((hl k hk).2 h), (hl k hk).1⟩
    · rw [(List.mem_replicate.1 h).2]
      exact (good_x hx).1
  · cases fs with
    | nil => exact absurd rfl h0
    | cons k ks =>
      refine ⟨fill x k, _, rfl, ?_⟩
      unfold fill
      split
      · exact (good_x hx).2
      · rintro c s rfl
        have h3 := hs.2.2
        rw [he] at h3
        cases h : ks ++ post with
        | nil =>
          refine ha c s ?_
          rw [h3, List.cons_append, h]
          simp [List.intercalate, List.intersperse]
        | cons y ys =>
          refine ha c (s ++ '/' :: List.intercalate ['/'] (y :: ys)) ?_
          rw [h3, List.cons_append, h]
          simp [List.intercalate, List.intersperse]

end Cover

open Cover

/-- C62: whatever the two filters are, if `matches(f, g)` is true, every text that `f` matches is
matched by `g`. -/
theorem C62_sound (f g t : List Char) (h : matches_ (bytes f) (bytes g) = .ok true)
    (ht : matches_ (bytes t) (bytes f) = .ok true) : matches_ (bytes t) (bytes g) = .ok true := by
  rw [matches_true_iff] at *
  exact ⟨ht.1, loop_trans h.2 ht.2⟩

/-- C62: of two valid filters, `f` not beginning with '$' or a multi-byte character, `matches(f, g)` is
true exactly if every topic name that `f` matches is matched by `g`, with one exception: "+/#" matches
all that "#" matches, but `matches` does not say so. -/
theorem C62_covers (f g : List Char) (hf : ValidFilter f) (hg : ValidFilter g)
    (ha : ∀ c r, f = c :: r → c.toNat < 0x80 ∧ c ≠ '$') :
    (matches_ (bytes f) (bytes g) = .ok true ∨ (f = "#".toList ∧ g = "+/#".toList)) ↔
      ∀ t, valid_topic (bytes t) = true → matches_ (bytes t) (bytes f) = .ok true →
        matches_ (bytes t) (bytes g) = .ok true := by
  constructor
  · rintro (h | ⟨rfl, rfl⟩) t ht hm
    · exact C62_sound f g t h hm
    · rw [matches_true_iff] at *
      refine ⟨hm.1, ?_⟩
      rw [show splitC "+/#".toList = [['+'], ['#']] by decide]
      have ht := ((C41_wildcards t).2.1 ht).2
      have hs := splitC_levels t
      cases he : splitC t with
      | nil => exact absurd he hs.1
      | cons l r =>
        refine .inr ⟨l, r, rfl, ?_, .inl rfl, .inl rfl⟩
        rintro rfl
        apply ht
        rw [hs.2.2, he]
        exact mem_intercalate (.head _) (.head _)
  · intro h
    obtain ⟨hf0, init, last, hl, hi, h1, h2⟩ := hf
    rw [levels_iff] at hl
    obtain ⟨x, hx1, hx2, hx3⟩ := fresh (splitC g)
    have hxh : x ≠ ['#'] := by
      rintro rfl
      exact absurd (hx3 '#' (.head _)) (by decide)
    have use : ∀ ts, Usable ts → LoopMatch (splitC f) ts → LoopMatch (splitC g) ts := by
      intro ts hg hm
      obtain ⟨u1, u2, u3⟩ := hg.use
      have := h (join ts) u1 ((matches_true_iff _ _).2 ⟨u3, by rw [u2]; exact hm⟩)
      rw [matches_true_iff, u2] at this
      exact this.2
    have hinit : ['#'] ∉ init := fun hm => (hi _ hm).1 (.head _)
    by_cases hlast : last = ['#']
    · subst hlast
      rw [← hl] at use
      by_cases h0 : init = []
      · subst h0
        simp only [List.nil_append] at hl use
        have gx : ∀ n, Usable (List.replicate (n + 1) x) := by
          intro n
          constructor
          · intro l hl
            rw [(List.mem_replicate.1 hl).2]
            exact (good_x hx3).1
          · exact ⟨x, List.replicate n x, rfl, (good_x hx3).2⟩
        rcases complete_all hx1 (Nat.lt_succ_self _) (use _ (gx _) (by simp [LoopMatch]))
          (use _ (gx 0) (by simp [LoopMatch])) with h | ⟨r, h⟩
        · refine .inl ((matches_true_iff _ _).2 ⟨ha, ?_⟩)
          rw [← hl]
          exact h
        · refine .inr ⟨?_, ?_⟩
          · rw [(splitC_levels f).2.2, ← hl]
            decide
          · obtain ⟨-, init, last, hlg, hig, -, -⟩ := hg
            rw [levels_iff, h] at hlg
            have hr : r = [] := by
              cases init with
              | nil => simp at hlg
              | cons a init =>
                simp only [List.cons_append, List.cons.injEq] at hlg
                obtain ⟨rfl, hlg⟩ := hlg
                cases init with
                | nil =>
                  simp only [List.nil_append, List.cons.injEq] at hlg
                  exact hlg.2.symm
                | cons b init =>
                  simp only [List.cons_append, List.cons.injEq] at hlg
                  obtain ⟨rfl, hlg⟩ := hlg
                  exact absurd (.head _) (hig ['#'] (.tail _ (.head _))).1
            rw [(splitC_levels g).2.2, h, hr]
            decide
      · refine .inl ((matches_true_iff _ _).2 ⟨ha, ?_⟩)
        rw [← hl]
        have g0 := good_fill hx3 0 hl.symm h0 hi ha
        rw [List.replicate_zero, List.append_nil] at g0
        have l0 := (loop_fill hxh [] hinit).2
        rw [List.append_nil] at l0
        exact complete_hash hx1 hinit (Nat.lt_succ_self _)
          (use _ (good_fill hx3 _ hl.symm h0 hi ha) (loop_fill hxh _ hinit).2) (use _ g0 l0)
    · refine .inl ((matches_true_iff _ _).2 ⟨ha, ?_⟩)
      have hfs : ['#'] ∉ init ++ [last] := by
        simp only [List.mem_append, List.mem_singleton, not_or]
        exact ⟨hinit, fun e => hlast e.symm⟩
      have hl' : ∀ l ∈ init ++ [last], '#' ∉ l ∧ ('+' ∈ l → l = ['+']) := by
        intro l hm
        simp only [List.mem_append, List.mem_singleton] at hm
        rcases hm with hm | rfl
        · exact hi l hm
        · exact ⟨fun h => hlast (h1 h), h2⟩
      have g0 := good_fill (post := []) hx3 0 (by rw [← hl, List.append_nil])
        (fs := init ++ [last]) (by simp) hl' ha
      rw [List.replicate_zero, List.append_nil] at g0
      rw [← hl] at use ⊢
      exact complete_exact hx1 hfs (use _ g0 (loop_fill hxh [] hfs).1)

/-- C62: every filter is covered by itself, valid or not, unless it begins with '$' or a multi-byte
character. With `C62_sound`: covering is reflexive and transitive. -/
theorem C62_refl (f : List Char) (ha : ∀ c r, f = c :: r → c.toNat < 0x80 ∧ c ≠ '$') :
    matches_ (bytes f) (bytes f) = .ok true := by
  refine (matches_true_iff _ _).2 ⟨ha, ?_⟩
  generalize splitC f = ls
  induction ls with
  | nil => simp [LoopMatch]
  | cons l ls ih =>
    rw [LoopMatch]
    by_cases h : l = ['#']
    · exact .inl h
    · exact .inr ⟨l, ls, rfl, h, .inr rfl, ih⟩

/-- C62: a filter without wildcards matches itself and nothing else. -/
theorem C62_literal (f t : List Char) (hf : NoWildcards f) :
    matches_ (bytes t) (bytes f) = .ok true ↔
      t = f ∧ ∀ c r, f = c :: r → c.toNat < 0x80 ∧ c ≠ '$' := by
  constructor
  · intro h
    rw [matches_true_iff] at h
    have key : ∀ {fs ts : List (List Char)}, (∀ l ∈ fs, l ≠ ['+'] ∧ l ≠ ['#']) →
        LoopMatch fs ts → ts = fs := by
      intro fs
      induction fs with
      | nil => intro ts _ h; exact h
      | cons l fs ih =>
        intro ts hn h
        rw [LoopMatch] at h
        rcases h with h | ⟨t, ts', rfl, -, hl, h⟩
        · exact absurd h (hn l (.head _)).2
        · rcases hl with hl | rfl
          · exact absurd hl (hn l (.head _)).1
          · rw [ih (fun l hl => hn l (.tail _ hl)) h]
    have hs := splitC_levels f
    have e := key (fs := splitC f) (fun l hl => ⟨?_, ?_⟩) h.2
    · have et : t = f := by rw [(splitC_levels t).2.2, e, ← hs.2.2]
      exact ⟨et, et ▸ h.1⟩
    · rintro rfl
      apply hf.1
      rw [hs.2.2]
      exact mem_intercalate hl (.head _)
    · rintro rfl
      apply hf.2
      rw [hs.2.2]
      exact mem_intercalate hl (.head _)
  · rintro ⟨rfl, h⟩
    exact C62_refl t h

/-- The hypotheses can be met: "a/+/c" is covered by "a/#", not by "a/b/#", and "+/#" is not said to
cover "#". -/
example : ValidFilter "a/+/c".toList ∧ ValidFilter "a/#".toList ∧
    (∀ c r, "a/+/c".toList = c :: r → c.toNat < 0x80 ∧ c ≠ '$') ∧
    matches_ (bytes "a/+/c".toList) (bytes "a/#".toList) = .ok true ∧
    matches_ (bytes "a/+/c".toList) (bytes "a/b/#".toList) = .ok false ∧
    matches_ (bytes "#".toList) (bytes "+/#".toList) = .ok false := by
  refine ⟨(C41_valid_filter _).1.1 (by decide +kernel), (C41_valid_filter _).1.1 (by decide +kernel),
    ?_, by decide +kernel, by decide +kernel, by decide +kernel⟩
  rintro c r ⟨⟩; decide

end Props
