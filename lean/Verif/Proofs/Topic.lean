import Verif.Proofs.Utf8
import Verif.Model.Topic
import Verif.Spec.Topic
/-
Lemmas on the topic helpers.
-/
set_option linter.unusedSimpArgs false
namespace Mqtt.Topic

open Spec (utf8Char)
open Spec.Topic

/-- The encoding of one character: a single byte below 128, or bytes that are all at least 128. -/
theorem utf8Char_shape (c : Char) :
    (c.toNat < 0x80 ∧ utf8Char c = [UInt8.ofNat c.toNat]) ∨
    (0x80 ≤ c.toNat ∧ 2 ≤ (utf8Char c).length ∧ ∀ b ∈ utf8Char c, 0x80 ≤ b.toNat) := by
  have hc : c.toNat < 0xD800 ∨ (0xDFFF < c.toNat ∧ c.toNat < 0x110000) := c.valid
  unfold utf8Char
  generalize c.toNat = v at hc
  simp only
  split
  · exact .inl ⟨by assumption, rfl⟩
  · refine .inr ⟨by omega, ?_⟩
    split
    · simp only [List.mem_cons, List.not_mem_nil, or_false, forall_eq_or_imp, forall_eq,
        ofNat_toNat (show 0xC0 + v / 64 < 256 by omega),
        ofNat_toNat (show 0x80 + v % 64 < 256 by omega), List.length_cons]
      omega
    split
    · simp only [List.mem_cons, List.not_mem_nil, or_false, forall_eq_or_imp, forall_eq,
        ofNat_toNat (show 0xE0 + v / 4096 < 256 by omega),
        ofNat_toNat (show 0x80 + v / 64 % 64 < 256 by omega),
        ofNat_toNat (show 0x80 + v % 64 < 256 by omega), List.length_cons]
      omega
    · simp only [List.mem_cons, List.not_mem_nil, or_false, forall_eq_or_imp, forall_eq,
        ofNat_toNat (show 0xF0 + v / 262144 < 256 by omega),
        ofNat_toNat (show 0x80 + v / 4096 % 64 < 256 by omega),
        ofNat_toNat (show 0x80 + v / 64 % 64 < 256 by omega),
        ofNat_toNat (show 0x80 + v % 64 < 256 by omega), List.length_cons]
      omega

theorem char_toNat_inj {c d : Char} (h : c.toNat = d.toNat) : c = d :=
  Char.ext (UInt32.toNat_inj.1 h)

/-- The encoding of a character followed by anything determines both. -/
theorem utf8Char_append_inj {c d : Char} {r r' : Bytes}
    (h : utf8Char c ++ r = utf8Char d ++ r') : c = d ∧ r = r' := by
  have hc : c.toNat < 0xD800 ∨ (0xDFFF < c.toNat ∧ c.toNat < 0x110000) := c.valid
  have hd : d.toNat < 0xD800 ∨ (0xDFFF < d.toNat ∧ d.toNat < 0x110000) := d.valid
  suffices hh : c.toNat = d.toNat ∧ r = r' from ⟨char_toNat_inj hh.1, hh.2⟩
  unfold utf8Char at h
  generalize c.toNat = v at hc h
  generalize d.toNat = w at hd h
  have e : ∀ {m n : Nat}, m < 256 → n < 256 → UInt8.ofNat m = UInt8.ofNat n → m = n := by
    intro m n hm hn he
    have := congrArg UInt8.toNat he
    rwa [ofNat_toNat hm, ofNat_toNat hn] at this
  simp only at h
  split at h <;> split at h <;> (try split at h) <;> (try split at h) <;> (try split at h) <;>
    (try split at h) <;> simp only [List.cons_append, List.nil_append, List.cons.injEq] at h
  all_goals first
    | (have h1 := e (by omega) (by omega) h.1; omega)
    | (have h1 := e (by omega) (by omega) h.1; exact ⟨by omega, h.2⟩)
    | (have h1 := e (by omega) (by omega) h.1
       have h2 := e (by omega) (by omega) h.2.1
       exact ⟨by omega, h.2.2⟩)
    | (have h1 := e (by omega) (by omega) h.1
       have h2 := e (by omega) (by omega) h.2.1
       have h3 := e (by omega) (by omega) h.2.2.1
       exact ⟨by omega, h.2.2.2⟩)
    | (have h1 := e (by omega) (by omega) h.1
       have h2 := e (by omega) (by omega) h.2.1
       have h3 := e (by omega) (by omega) h.2.2.1
       have h4 := e (by omega) (by omega) h.2.2.2.1
       exact ⟨by omega, h.2.2.2.2⟩)

theorem utf8Char_ne_nil (c : Char) : utf8Char c ≠ [] := by
  rcases utf8Char_shape c with ⟨-, h⟩ | ⟨-, h, -⟩
  · simp [h]
  · intro h'; simp [h'] at h

theorem bytes_inj : ∀ {s t : List Char}, bytes s = bytes t → s = t
  | [], [], _ => rfl
  | [], c :: t, h => absurd h.symm (by simp [bytes, utf8Char_ne_nil])
  | c :: s, [], h => absurd h (by simp [bytes, utf8Char_ne_nil])
  | c :: s, d :: t, h => by
    obtain ⟨h1, h2⟩ := utf8Char_append_inj (show utf8Char c ++ bytes s = utf8Char d ++ bytes t from h)
    rw [h1, bytes_inj h2]

theorem bytes_cons (c : Char) (s : List Char) : bytes (c :: s) = utf8Char c ++ bytes s := rfl

/-- A single-byte character. -/
structure Ascii (c : Char) (b : UInt8) : Prop where
  lt : c.toNat < 0x80
  eq : b.toNat = c.toNat

theorem ascii_plus : Ascii '+' plus := ⟨by decide, by decide⟩
theorem ascii_hash : Ascii '#' hash := ⟨by decide, by decide⟩
theorem ascii_slash : Ascii '/' slash := ⟨by decide, by decide⟩
theorem ascii_dollar : Ascii '$' dollar := ⟨by decide, by decide⟩

theorem Ascii.enc {c : Char} {b : UInt8} (h : Ascii c b) : utf8Char c = [b] := by
  rcases utf8Char_shape c with ⟨-, h1⟩ | ⟨h1, -⟩
  · rw [h1, ofNat_eq b h.eq.symm]
  · exact absurd h.lt (by omega)

theorem Ascii.mem_char {c : Char} {b : UInt8} (h : Ascii c b) (d : Char) :
    b ∈ utf8Char d ↔ c = d := by
  constructor
  · intro hm
    rcases utf8Char_shape d with ⟨h1, h2⟩ | ⟨h1, -, h2⟩
    · rw [h2, List.mem_singleton] at hm
      apply char_toNat_inj
      rw [← h.eq, hm, ofNat_toNat (by omega)]
    · have := h2 b hm; have := h.lt; have := h.eq; omega
  · rintro rfl; rw [h.enc]; exact .head _

theorem Ascii.mem {c : Char} {b : UInt8} (h : Ascii c b) (s : List Char) :
    b ∈ bytes s ↔ c ∈ s := by
  simp only [bytes, List.mem_flatMap, h.mem_char]
  constructor
  · rintro ⟨a, ha, rfl⟩; exact ha
  · intro hc; exact ⟨c, hc, rfl⟩

theorem Ascii.contains {c : Char} {b : UInt8} (h : Ascii c b) (s : List Char) :
    (bytes s).contains b = true ↔ c ∈ s := by
  rw [List.contains_iff_mem, h.mem]

/-- `bytes s` is the one-byte string of an ASCII character exactly when `s` is that character. -/
theorem Ascii.single {c : Char} {b : UInt8} (h : Ascii c b) (s : List Char) :
    bytes s = [b] ↔ s = [c] := by
  have he : bytes [c] = [b] := by simp [bytes, h.enc]
  rw [← he]
  exact ⟨bytes_inj, fun h => by rw [h]⟩

theorem bytes_length (s : List Char) : s.length ≤ (bytes s).length := by
  induction s with
  | nil => simp
  | cons c s ih =>
    rw [bytes_cons, List.length_append, List.length_cons]
    have := List.length_pos_iff.2 (utf8Char_ne_nil c)
    omega

/-- With the ASCII character in it, length one means being that character. -/
theorem Ascii.len_one {c : Char} {b : UInt8} (h : Ascii c b) (s : List Char) (hc : c ∈ s) :
    (bytes s).length = 1 ↔ s = [c] := by
  constructor
  · intro hl
    have := bytes_length s
    match s, hc with
    | [d], hc => rw [List.mem_singleton] at hc; rw [hc]
    | _ :: _ :: _, _ => simp at this; omega
  · rintro rfl; rw [(h.single [c]).2 rfl]; rfl

/-! ### Splitting -/

/-- The split of characters. -/
def splitC : List Char → List (List Char)
  | [] => [[]]
  | c :: r =>
    if c = '/' then [] :: splitC r
    else match splitC r with
      | [] => [[c]]
      | l :: ls => (c :: l) :: ls

theorem splitC_ne_nil : ∀ s, splitC s ≠ []
  | [] => by simp [splitC]
  | c :: r => by
    unfold splitC; split
    · simp
    · split <;> simp

theorem split_ne_nil (c : UInt8) : ∀ s, split c s ≠ []
  | [] => by simp [split]
  | b :: r => by
    unfold split; split
    · simp
    · split <;> simp

theorem split_prefix {c : UInt8} {l : Bytes} {ls : List Bytes} :
    ∀ (p r : Bytes), (∀ b ∈ p, b ≠ c) → split c r = l :: ls → split c (p ++ r) = (p ++ l) :: ls
  | [], _, _, h => h
  | b :: p, r, hp, h => by
    have ih := split_prefix p r (fun x hx => hp x (.tail _ hx)) h
    rw [List.cons_append, split, if_neg (hp b (.head _)), ih]
    rfl

theorem split_bytes : ∀ s : List Char, split slash (bytes s) = (splitC s).map bytes
  | [] => rfl
  | c :: r => by
    have ih := split_bytes r
    unfold splitC
    by_cases hc : c = '/'
    · subst hc
      rw [if_pos rfl, bytes_cons, ascii_slash.enc, List.singleton_append, split, if_pos rfl, ih]
      rfl
    · rw [if_neg hc, bytes_cons]
      cases hs : splitC r with
      | nil => exact absurd hs (splitC_ne_nil r)
      | cons l ls =>
        rw [hs, List.map_cons] at ih
        rw [split_prefix (utf8Char c) (bytes r) _ ih]
        · rfl
        · rintro b hb rfl
          exact hc ((ascii_slash.mem_char c).1 hb).symm

theorem splitC_levels : ∀ s, Levels s (splitC s)
  | [] => ⟨by simp [splitC], by simp [splitC], rfl⟩
  | c :: r => by
    obtain ⟨h1, h2, h3⟩ := splitC_levels r
    refine ⟨splitC_ne_nil _, ?_, ?_⟩
    · unfold splitC
      split
      · intro l hl
        rcases List.mem_cons.1 hl with rfl | hl
        · simp
        · exact h2 l hl
      · rename_i hc
        cases hs : splitC r with
        | nil => exact absurd hs h1
        | cons l ls =>
          rw [hs] at h2
          intro l' hl
          rcases List.mem_cons.1 hl with rfl | hl
          · intro hm
            rcases List.mem_cons.1 hm with hm | hm
            · exact hc hm.symm
            · exact h2 l (.head _) hm
          · exact h2 l' (.tail _ hl)
    · unfold splitC
      cases hs : splitC r with
      | nil => exact absurd hs h1
      | cons l ls =>
        rw [hs] at h3
        split
        · rename_i hc
          subst hc
          rw [h3]
          simp [List.intercalate, List.intersperse]
        · rw [h3]
          cases ls <;> simp [List.intercalate, List.intersperse]

theorem splitC_append {l : List Char} (h : '/' ∉ l) : ∀ r, splitC (l ++ '/' :: r) = l :: splitC r := by
  induction l with
  | nil => intro r; simp [splitC]
  | cons c l ih =>
    intro r
    have hc : c ≠ '/' := fun e => h (by simp [e])
    rw [List.cons_append, splitC, if_neg hc, ih (fun hm => h (.tail _ hm))]

theorem splitC_single {l : List Char} (h : '/' ∉ l) : splitC l = [l] := by
  induction l with
  | nil => rfl
  | cons c l ih =>
    have hc : c ≠ '/' := fun e => h (by simp [e])
    rw [splitC, if_neg hc, ih (fun hm => h (.tail _ hm))]

/-- The levels of a text are unique. -/
theorem levels_iff (s : List Char) (ls : List (List Char)) : Levels s ls ↔ ls = splitC s := by
  constructor
  · rintro ⟨h1, h2, rfl⟩
    induction ls with
    | nil => exact absurd rfl h1
    | cons l ls ih =>
      cases ls with
      | nil => simp [List.intercalate, List.intersperse, splitC_single (h2 l (.head _))]
      | cons l' ls =>
        have ih := ih (by simp) (fun x hx => h2 x (.tail _ hx))
        have he : List.intercalate ['/'] (l :: l' :: ls)
            = l ++ '/' :: List.intercalate ['/'] (l' :: ls) := by
          simp [List.intercalate, List.intersperse]
        rw [he, splitC_append (h2 l (.head _)), ← ih]
  · rintro rfl; exact splitC_levels s

/-! ### The functions -/

theorem valid_entries_iff (ls : List (List Char)) :
    valid_entries (ls.map bytes) = true ↔ ∀ l ∈ ls, '#' ∉ l ∧ ('+' ∈ l → l = ['+']) := by
  induction ls with
  | nil => simp [valid_entries]
  | cons l ls ih =>
    rw [List.map_cons, valid_entries, List.forall_mem_cons, ← ih]
    by_cases h1 : '#' ∈ l
    · rw [if_pos ((ascii_hash.contains l).2 h1)]; simp [h1]
    rw [if_neg (fun h => h1 ((ascii_hash.contains l).1 h))]
    by_cases h2 : '+' ∈ l
    · have hl := ascii_plus.len_one l h2
      have hc := (ascii_plus.contains l).2 h2
      by_cases h3 : l = ['+']
      · rw [if_neg (by simp [hl.2 h3])]; simp [h1, h3]
      · rw [if_pos]
        · simp [h2, h3]
        · have : (bytes l).length ≠ 1 := fun h => h3 (hl.1 h)
          have hp : 0 < l.length := List.length_pos_iff.2 (by rintro rfl; simp at h2)
          have := bytes_length l
          simp only [hc, Bool.and_true, decide_eq_true_eq]
          omega
    · rw [if_neg (by simp only [Bool.and_eq_true, ascii_plus.contains, h2, and_false, not_false_iff])]
      simp [h1, h2]

theorem bytes_isEmpty (s : List Char) : (bytes s).isEmpty = true ↔ s = [] := by
  cases s with
  | nil => simp [bytes]
  | cons c s => simp [bytes_cons, utf8Char_ne_nil]

theorem last_iff (last : List Char) :
    ((bytes last).length != 1 && ((bytes last).contains hash || (bytes last).contains plus)) = false
      ↔ ('#' ∈ last → last = ['#']) ∧ ('+' ∈ last → last = ['+']) := by
  by_cases h1 : '#' ∈ last
  · have hl := ascii_hash.len_one last h1
    rw [(ascii_hash.contains last).2 h1, Bool.true_or, Bool.and_true]
    simp only [h1, forall_const, bne_eq_false_iff_eq, hl]
    constructor
    · rintro rfl; simp
    · exact fun h => h.1
  by_cases h2 : '+' ∈ last
  · have hl := ascii_plus.len_one last h2
    rw [(ascii_plus.contains last).2 h2, Bool.or_true, Bool.and_true]
    simp only [h1, h2, false_implies, true_and, forall_const, bne_eq_false_iff_eq, hl]
  · have e1 : (bytes last).contains hash = false := by
      rw [← Bool.not_eq_true, ascii_hash.contains]; exact h1
    have e2 : (bytes last).contains plus = false := by
      rw [← Bool.not_eq_true, ascii_plus.contains]; exact h2
    simp only [e1, e2, h1, h2, Bool.or_self, Bool.and_false, false_implies, and_self]

/-- `valid_filter` never panics and decides `ValidFilter`. -/
theorem valid_filter_spec (s : List Char) :
    ∃ r, valid_filter (bytes s) = .ok r ∧ (r = true ↔ ValidFilter s) := by
  unfold valid_filter
  by_cases h0 : s = []
  · rw [if_pos ((bytes_isEmpty s).2 h0)]
    exact ⟨false, rfl, by simp [ValidFilter, h0]⟩
  rw [if_neg (fun h => h0 ((bytes_isEmpty s).1 h)), split_bytes]
  have hne := splitC_ne_nil s
  obtain ⟨init, last, hs⟩ : ∃ init last, splitC s = init ++ [last] :=
    ⟨(splitC s).dropLast, (splitC s).getLast hne, (List.dropLast_concat_getLast hne).symm⟩
  have hv : ValidFilter s ↔ (∀ l ∈ init, '#' ∉ l ∧ ('+' ∈ l → l = ['+'])) ∧
      ('#' ∈ last → last = ['#']) ∧ ('+' ∈ last → last = ['+']) := by
    constructor
    · rintro ⟨-, i, l, hl, h⟩
      rw [levels_iff, hs] at hl
      obtain ⟨rfl, h'⟩ := List.append_inj' hl rfl
      obtain rfl : l = last := by simpa using h'
      exact h
    · intro h
      exact ⟨h0, init, last, (levels_iff _ _).2 hs.symm, h⟩
  rw [hs, List.map_append, List.reverse_append, List.map_singleton, List.reverse_singleton,
    List.singleton_append, ← List.map_reverse]
  simp only
  by_cases hl : ('#' ∈ last → last = ['#']) ∧ ('+' ∈ last → last = ['+'])
  · rw [(last_iff last).2 hl]
    refine ⟨_, rfl, ?_⟩
    rw [valid_entries_iff, hv]
    simp only [List.mem_reverse]
    exact ⟨fun h => ⟨h, hl⟩, fun h => h.1⟩
  · have : ((bytes last).length != 1 && ((bytes last).contains hash || (bytes last).contains plus))
        = true := by
      rw [← Bool.not_eq_false]; exact fun h => hl ((last_iff last).1 h)
    rw [if_pos this]
    exact ⟨false, rfl, by rw [hv]; simp [hl]⟩

/-- What the matching loop decides, on any two lists of levels: the levels before the first '#'
of the filter accept as many topic levels, none of which is '#'; without '#' nothing is left. -/
def LoopMatch : (fs ts : List (List Char)) → Prop
  | [], ts => ts = []
  | f :: fs, ts => f = ['#'] ∨ ∃ t ts', ts = t :: ts' ∧ t ≠ ['#'] ∧ LevelOk f t ∧ LoopMatch fs ts'

theorem matchLoop_iff : ∀ fs ts : List (List Char),
    matchLoop (fs.map bytes) (ts.map bytes) = true ↔ LoopMatch fs ts
  | [], ts => by simp [matchLoop, LoopMatch]
  | f :: fs, ts => by
    rw [List.map_cons, matchLoop.eq_def, LoopMatch]
    simp only
    by_cases h1 : f = ['#']
    · rw [if_pos (by rw [beq_iff_eq]; exact (ascii_hash.single f).2 h1)]; simp [h1]
    rw [if_neg (by rw [beq_iff_eq]; exact fun h => h1 ((ascii_hash.single f).1 h))]
    cases ts with
    | nil => simp [h1]
    | cons t ts =>
      have ih := matchLoop_iff fs ts
      have hex : (∃ t' ts', t :: ts = t' :: ts' ∧ t' ≠ ['#'] ∧ LevelOk f t' ∧ LoopMatch fs ts')
          ↔ (t ≠ ['#'] ∧ LevelOk f t ∧ LoopMatch fs ts) := by
        constructor
        · rintro ⟨_, _, ⟨⟩, h⟩; exact h
        · intro h; exact ⟨t, ts, rfl, h⟩
      simp only [List.map_cons, hex, h1, false_or]
      by_cases h2 : t = ['#']
      · rw [if_pos (by rw [beq_iff_eq]; exact (ascii_hash.single t).2 h2)]; simp [h2]
      rw [if_neg (by rw [beq_iff_eq]; exact fun h => h2 ((ascii_hash.single t).1 h))]
      by_cases h3 : f = ['+']
      · rw [if_pos (by rw [beq_iff_eq]; exact (ascii_plus.single f).2 h3), ih]
        simp [h2, h3, LevelOk]
      rw [if_neg (by rw [beq_iff_eq]; exact fun h => h3 ((ascii_plus.single f).1 h))]
      by_cases h4 : f = t
      · rw [if_neg (by simp [h4]), ih]; simp [h2, h4, LevelOk]
      · rw [if_pos (by rw [bne_iff_ne]; exact fun h => h4 (bytes_inj h))]
        simp [h3, h4, LevelOk]

theorem loopMatch_any : ∀ fs ts : List (List Char), LoopMatch fs ts ↔
    ∃ fs' ts' frest trest, fs = fs' ++ frest ∧ ts = ts' ++ trest ∧ AllOk fs' ts' ∧
      ['#'] ∉ ts' ∧ ((frest = [] ∧ trest = []) ∨ ∃ r, frest = ['#'] :: r)
  | [], ts => by
    rw [LoopMatch]
    constructor
    · rintro rfl
      exact ⟨[], [], [], [], rfl, rfl, trivial, by simp, .inl ⟨rfl, rfl⟩⟩
    · rintro ⟨fs', ts', frest, trest, h1, rfl, h3, -, h5⟩
      obtain ⟨rfl, rfl⟩ := List.append_eq_nil_iff.1 h1.symm
      rcases h5 with ⟨-, rfl⟩ | ⟨r, h5⟩
      · cases ts' with
        | nil => rfl
        | cons t ts => exact h3.elim
      · cases h5
  | f :: fs, ts => by
    rw [LoopMatch]
    constructor
    · rintro (rfl | ⟨t, ts1, rfl, ht, hl, hm⟩)
      · exact ⟨[], [], _, ts, rfl, rfl, trivial, by simp, .inr ⟨fs, rfl⟩⟩
      · obtain ⟨fs', ts', frest, trest, rfl, rfl, h3, h4, h5⟩ := (loopMatch_any fs ts1).1 hm
        refine ⟨f :: fs', t :: ts', frest, trest, rfl, rfl, ⟨hl, h3⟩, ?_, h5⟩
        simp only [List.mem_cons, not_or]
        exact ⟨fun h => ht h.symm, h4⟩
    · rintro ⟨fs', ts', frest, trest, h1, rfl, h3, h4, h5⟩
      cases fs' with
      | nil =>
        rcases h5 with ⟨rfl, -⟩ | ⟨r, rfl⟩
        · cases h1
        · exact .inl (List.cons.inj h1).1
      | cons f' fs' =>
        cases ts' with
        | nil => exact h3.elim
        | cons t ts' =>
          obtain ⟨rfl, rfl⟩ := List.cons.inj h1
          simp only [List.mem_cons, not_or] at h4
          exact .inr ⟨t, ts' ++ trest, rfl, fun h => h4.1 h.symm, h3.1,
            (loopMatch_any _ _).2 ⟨fs', ts', frest, trest, rfl, rfl, h3.2, h4.2, h5⟩⟩

/-- On a filter with '#' at most at the end, and a topic without '#' levels, the loop decides
`LevelsMatch`. -/
theorem loopMatch_levels : ∀ (fs ts : List (List Char)),
    (∀ i l, fs = i ++ [l] → ∀ f ∈ i, f ≠ ['#']) → (∀ t ∈ ts, t ≠ ['#']) →
    (LoopMatch fs ts ↔ LevelsMatch fs ts)
  | [], ts, _, _ => by
    cases ts <;> simp [LoopMatch, LevelsMatch, AllOk]
  | f :: fs, ts, hf, ht => by
    rw [LoopMatch]
    by_cases h1 : f = ['#']
    · have hfs : fs = [] := by
        cases fs with
        | nil => rfl
        | cons g gs =>
          exfalso
          have hne : g :: gs ≠ [] := by simp
          refine hf (f :: (g :: gs).dropLast) ((g :: gs).getLast hne) ?_ f (.head _) h1
          rw [List.cons_append, List.dropLast_concat_getLast hne]
      subst hfs
      simp only [h1, true_or, true_iff]
      exact .inr ⟨[], [], ts, rfl, rfl, trivial⟩
    · simp only [h1, false_or]
      cases ts with
      | nil =>
        simp only [LevelsMatch, AllOk, false_or]
        constructor
        · rintro ⟨_, _, ⟨⟩, _⟩
        · rintro ⟨fs', ts', rest, h2, h3, h4⟩
          exfalso
          obtain ⟨rfl, rfl⟩ := List.append_eq_nil_iff.1 h3.symm
          cases fs' with
          | nil => simp at h2; exact h1 h2.1
          | cons => exact h4
      | cons t ts =>
        have ih := loopMatch_levels fs ts
          (fun i l he g hg => hf (f :: i) l (by rw [he]; rfl) g (.tail _ hg))
          (fun x hx => ht x (.tail _ hx))
        constructor
        · rintro ⟨_, _, ⟨⟩, -, h3, h4⟩
          rcases ih.1 h4 with h5 | ⟨fs', ts', rest, rfl, rfl, h5⟩
          · exact .inl ⟨h3, h5⟩
          · exact .inr ⟨f :: fs', t :: ts', rest, rfl, rfl, h3, h5⟩
        · intro h
          refine ⟨t, ts, rfl, ht t (.head _), ?_⟩
          rcases h with h | ⟨fs', ts', rest, h2, h3, h4⟩
          · exact ⟨h.1, ih.2 (.inl h.2)⟩
          · cases fs' with
            | nil => simp at h2; exact absurd h2.1 h1
            | cons g fs' =>
              cases ts' with
              | nil => exact absurd h4 (by simp [AllOk])
              | cons t' ts' =>
                obtain ⟨rfl, rfl⟩ := List.cons.inj h2
                obtain ⟨rfl, rfl⟩ := List.cons.inj h3
                exact ⟨h4.1, ih.2 (.inr ⟨fs', ts', rest, rfl, rfl, h4.2⟩)⟩

theorem mem_intercalate {c : Char} : ∀ {ls : List (List Char)} {l : List Char},
    l ∈ ls → c ∈ l → c ∈ List.intercalate ['/'] ls
  | [], _, h, _ => by simp at h
  | [x], l, h, hc => by
    rw [List.mem_singleton] at h; subst h
    simpa [List.intercalate, List.intersperse] using hc
  | x :: y :: ls, l, h, hc => by
    have he : List.intercalate ['/'] (x :: y :: ls) = x ++ '/' :: List.intercalate ['/'] (y :: ls) := by
      simp [List.intercalate, List.intersperse]
    rw [he, List.mem_append, List.mem_cons]
    rcases List.mem_cons.1 h with rfl | h
    · exact .inl hc
    · exact .inr (.inr (mem_intercalate h hc))

theorem boundary1_iff (c : Char) (s : List Char) :
    boundary1 (bytes (c :: s)) = true ↔ c.toNat < 0x80 := by
  have hc : c.toNat < 0xD800 ∨ (0xDFFF < c.toNat ∧ c.toNat < 0x110000) := c.valid
  have first : ∀ d : Char, ∀ b r, utf8Char d = b :: r → ¬ (0x80 ≤ b.toNat ∧ b.toNat < 0xC0) := by
    intro d b r
    have hd : d.toNat < 0xD800 ∨ (0xDFFF < d.toNat ∧ d.toNat < 0x110000) := d.valid
    unfold utf8Char
    generalize d.toNat = w at hd
    simp only
    split
    · rintro ⟨⟩; rw [ofNat_toNat (show w < 256 by omega)]; omega
    split
    · rintro ⟨⟩; rw [ofNat_toNat (show 0xC0 + w / 64 < 256 by omega)]; omega
    split
    · rintro ⟨⟩; rw [ofNat_toNat (show 0xE0 + w / 4096 < 256 by omega)]; omega
    · rintro ⟨⟩; rw [ofNat_toNat (show 0xF0 + w / 262144 < 256 by omega)]; omega
  rw [bytes_cons]
  by_cases h : c.toNat < 0x80
  · rcases utf8Char_shape c with ⟨-, h1⟩ | ⟨h1, -⟩
    · rw [h1, List.singleton_append]
      simp only [h, iff_true]
      cases s with
      | nil => rfl
      | cons d s =>
        rw [bytes_cons]
        cases hd : utf8Char d with
        | nil => exact absurd hd (utf8Char_ne_nil d)
        | cons b r =>
          have := first d b r hd
          simp only [List.cons_append, boundary1, Bool.not_eq_true', Bool.and_eq_false_iff,
            decide_eq_false_iff_not, UInt8.le_iff_toNat_le, UInt8.lt_iff_toNat_lt,
            UInt8.reduceToNat]
          omega
    · omega
  · simp only [h, iff_false, Bool.not_eq_true]
    have k : ∀ n : Nat, n < 64 → ∀ b0 r, boundary1 (b0 :: UInt8.ofNat (0x80 + n) :: r) = false := by
      intro n hn b0 r
      simp only [boundary1, Bool.not_eq_false', Bool.and_eq_true, decide_eq_true_eq,
        UInt8.le_iff_toNat_le, UInt8.lt_iff_toNat_lt, UInt8.reduceToNat,
        ofNat_toNat (show 0x80 + n < 256 by omega)]
      omega
    unfold utf8Char
    generalize c.toNat = v at hc h
    simp only
    rw [if_neg h]
    split
    · exact k _ (by omega) _ _
    split
    · exact k _ (by omega) _ _
    · exact k _ (by omega) _ _

/-- `matches_` on texts. -/
theorem matches_spec (topic filter : List Char) :
    matches_ (bytes topic) (bytes filter) =
      (match topic with
        | [] => .ok (matchLoop ((splitC filter).map bytes) ((splitC topic).map bytes))
        | c :: _ => if c.toNat < 0x80 then
            (if c = '$' then .ok false
             else .ok (matchLoop ((splitC filter).map bytes) ((splitC topic).map bytes)))
          else .panic) := by
  unfold matches_
  rw [split_bytes, split_bytes]
  cases topic with
  | nil => rfl
  | cons c s =>
    have h0 : (bytes (c :: s)).isEmpty = false := by
      rw [← Bool.not_eq_true, bytes_isEmpty]; simp
    rw [h0]
    simp only [Bool.not_false, if_true]
    by_cases h : c.toNat < 0x80
    · rw [if_pos ((boundary1_iff c s).2 h), if_pos h]
      have he : utf8Char c = [UInt8.ofNat c.toNat] := by
        rcases utf8Char_shape c with ⟨-, h1⟩ | ⟨h1, -⟩
        · exact h1
        · omega
      have ht : (bytes (c :: s)).take 1 = utf8Char c := by rw [bytes_cons, he]; rfl
      rw [ht]
      by_cases hd : c = '$'
      · subst hd; rw [if_pos rfl, ascii_dollar.enc]; rfl
      · rw [if_neg hd, if_neg]
        rw [List.contains_iff_mem, ascii_dollar.mem_char]
        exact fun h => hd h.symm
    · rw [if_neg (fun hb => h ((boundary1_iff c s).1 hb)), if_neg h]

end Mqtt.Topic
