import Verif.Spec.Topic
/-
Vocabulary for C74: the filters that a topic name can be routed by.
-/
namespace Spec.Topic

/-- For the levels of a topic name: each level as it is or "+", and "#" after any number of them. -/
def filtersFor : List (List Char) → List (List (List Char))
  | [] => [[], [['#']]]
  | l :: ls => [['#']] :: ((filtersFor ls).map (l :: ·) ++ (filtersFor ls).map (['+'] :: ·))

/-- The same, written with separators. -/
def candidates (ls : List (List Char)) : List (List Char) :=
  (filtersFor ls).map (List.intercalate ['/'])

end Spec.Topic
