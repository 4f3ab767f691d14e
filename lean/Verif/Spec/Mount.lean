import Verif.Spec.Topic
/-
Vocabulary for C82: topics and filters behind a prefix.
-/
namespace Spec.Topic

/-- The topic name or filter `t` behind the prefix `p`. -/
def under (p t : List Char) : List Char := p ++ '/' :: t

/-- It does not begin with '$' or with a multi-byte character. -/
def PlainStart (s : List Char) : Prop := ∀ c r, s = c :: r → c.toNat < 0x80 ∧ c ≠ '$'

/-- MQTT 5, 4.8.2: the filter of a shared subscription. -/
def shared (group f : List Char) : List Char := under (under "$share".toList group) f

end Spec.Topic
