import Verif.Spec.Utf8
/-
Topic names and topic filters (MQTT 5, sections 4.7.1 and 4.7.2), over lists of characters.
-/
namespace Spec.Topic

open Mqtt (Bytes)

/-- The UTF-8 bytes of a text. -/
def bytes (s : List Char) : Bytes := s.flatMap utf8Char

/-- The levels of a topic name or filter: the pieces between the '/' separators. -/
def Levels (s : List Char) (ls : List (List Char)) : Prop :=
  ls ≠ [] ∧ (∀ l ∈ ls, '/' ∉ l) ∧ s = List.intercalate ['/'] ls

/-- No wildcard character occurs. -/
def NoWildcards (s : List Char) : Prop := '+' ∉ s ∧ '#' ∉ s

/-- Section 4.7.1: a filter is not empty, '#' may only be the whole last level and '+' may only
be a whole level. -/
def ValidFilter (s : List Char) : Prop :=
  s ≠ [] ∧ ∃ init last, Levels s (init ++ [last]) ∧
    (∀ l ∈ init, '#' ∉ l ∧ ('+' ∈ l → l = ['+'])) ∧
    ('#' ∈ last → last = ['#']) ∧ ('+' ∈ last → last = ['+'])

/-- One filter level accepts one topic level. -/
def LevelOk (f t : List Char) : Prop := f = ['+'] ∨ f = t

/-- Two lists of levels have the same length and match level by level. -/
def AllOk : (fs ts : List (List Char)) → Prop
  | [], [] => True
  | f :: fs, t :: ts => LevelOk f t ∧ AllOk fs ts
  | _, _ => False

/-- Section 4.7.1.2/4.7.1.3 on lists of levels: the filter matches level by level, or it is
some levels followed by '#' and those levels match the first levels of the topic. -/
def LevelsMatch (fs ts : List (List Char)) : Prop :=
  AllOk fs ts ∨ ∃ fs' ts' rest, fs = fs' ++ [['#']] ∧ ts = ts' ++ rest ∧ AllOk fs' ts'

/-- A topic name is matched by a topic filter (apart from the rule on '$'). -/
def Matches (topic filter : List Char) : Prop :=
  ∃ fs ts, Levels filter fs ∧ Levels topic ts ∧ LevelsMatch fs ts

/-- What `matches` looks at when the filter need not be valid nor the topic a topic name: some first
levels of the filter accept some first levels of the topic, none of which is "#", and either that is
all, or the next level of the filter is "#" (and whatever follows does not matter). -/
def MatchesAny (topic filter : List Char) : Prop :=
  ∃ fs ts frest trest, Levels filter (fs ++ frest) ∧ Levels topic (ts ++ trest) ∧ AllOk fs ts ∧
    ['#'] ∉ ts ∧ ((frest = [] ∧ trest = []) ∨ ∃ r, frest = ['#'] :: r)

end Spec.Topic
