import Verif.Model.Basic
/-
Reasoning principles for the monad `M`: lawfulness, and the three compositional predicates used
everywhere: `Emits` (writers), `Parses` (readers on well-formed input), `Good` (readers on
arbitrary input).
-/
namespace Mqtt

namespace M

variable {α β : Type}

theorem bind_apply (m : M α) (f : α → M β) (b : Bytes) :
    (m >>= f) b = match m b with
      | (.ok a, b') => f a b'
      | (.err e, b') => (.err e, b')
      | (.panic, b') => (.panic, b')
      | (.diverge, b') => (.diverge, b') := rfl

@[simp] theorem pure_apply (a : α) (b : Bytes) : (Pure.pure a : M α) b = (.ok a, b) := rfl

theorem bind_ok {m : M α} {f : α → M β} {b b' : Bytes} {a : α} (h : m b = (.ok a, b')) :
    (m >>= f) b = f a b' := by rw [bind_apply, h]

theorem bind_err {m : M α} {f : α → M β} {b b' : Bytes} {e : Err} (h : m b = (.err e, b')) :
    (m >>= f) b = (.err e, b') := by rw [bind_apply, h]

theorem bind_panic {m : M α} {f : α → M β} {b b' : Bytes} (h : m b = (.panic, b')) :
    (m >>= f) b = (.panic, b') := by rw [bind_apply, h]

/-- Inversion of a successful sequence. -/
theorem bind_eq_ok {m : M α} {f : α → M β} {b b' : Bytes} {c : β} :
    (m >>= f) b = (.ok c, b') ↔ ∃ a b1, m b = (.ok a, b1) ∧ f a b1 = (.ok c, b') := by
  rw [bind_apply]
  rcases hm : m b with ⟨o, b1⟩
  cases o with
  | ok a => exact ⟨fun h => ⟨_, _, rfl, h⟩, fun ⟨_, _, h, h'⟩ => by cases h; exact h'⟩
  | _ => simp

/-- Inversion of a failing sequence. -/
theorem bind_eq_err {m : M α} {f : α → M β} {b b' : Bytes} {e : Err} :
    (m >>= f) b = (.err e, b') ↔ m b = (.err e, b') ∨
      ∃ a b1, m b = (.ok a, b1) ∧ f a b1 = (.err e, b') := by
  rw [bind_apply]
  rcases hm : m b with ⟨o, b1⟩
  cases o with
  | ok a =>
    exact ⟨fun h => .inr ⟨_, _, rfl, h⟩, fun h => by
      rcases h with h | ⟨_, _, h, h'⟩
      · simp at h
      · cases h; exact h'⟩
  | _ => simp

instance : LawfulMonad M := LawfulMonad.mk'
  (id_map := by
    intro α x; funext b
    show (x >>= fun a => Pure.pure (id a)) b = x b
    rw [bind_apply]; rcases x b with ⟨o, b'⟩; cases o <;> rfl)
  (pure_bind := by intros; rfl)
  (bind_assoc := by
    intro α β γ x f g; funext b
    simp only [bind_apply]; rcases x b with ⟨o, b'⟩; cases o <;> rfl)

end M

@[simp] theorem getBuf_bind {α : Type} (f : Bytes → M α) (b : Bytes) :
    (getBuf >>= f) b = f b b := rfl

@[simp] theorem throwE_apply {α : Type} (e : Err) (b : Bytes) :
    (throwE e : M α) b = (.err e, b) := rfl

@[simp] theorem throwE_bind {α β : Type} (e : Err) (f : α → M β) :
    (throwE e >>= f) = throwE e := rfl

@[simp] theorem liftOut_apply {α : Type} (o : Out α) (b : Bytes) : liftOut o b = (o, b) := rfl

@[simp] theorem liftOut_ok {α : Type} (a : α) : (liftOut (.ok a) : M α) = pure a := rfl
@[simp] theorem liftOut_err {α : Type} (e : Err) : (liftOut (.err e) : M α) = throwE e := rfl
@[simp] theorem liftOut_panic {α : Type} : (liftOut .panic : M α) = panicM := rfl
@[simp] theorem panicM_apply {α : Type} (b : Bytes) : (panicM : M α) b = (.panic, b) := rfl
@[simp] theorem panicM_bind {α β : Type} (f : α → M β) :
    ((panicM : M α) >>= f) = panicM := rfl

/-! ### Writers -/

/-- `m` appends exactly `w`, whatever is in the buffer, and gives `o`. -/
def Emits {α : Type} (m : M α) (o : Out α) (w : Bytes) : Prop := ∀ b, m b = (o, b ++ w)

namespace Emits

variable {α β : Type}

theorem pure (a : α) : Emits (Pure.pure a : M α) (.ok a) [] := by intro b; simp

theorem bind {m : M α} {f : α → M β} {a : α} {o : Out β} {w1 w2 : Bytes}
    (h1 : Emits m (.ok a) w1) (h2 : Emits (f a) o w2) : Emits (m >>= f) o (w1 ++ w2) := by
  intro b; rw [M.bind_ok (h1 b), h2, List.append_assoc]

theorem bind_err {m : M α} {f : α → M β} {e : Err} {w : Bytes}
    (h1 : Emits m (.err e) w) : Emits (m >>= f) (.err e) w := by
  intro b; rw [M.bind_err (h1 b)]

theorem throwE (e : Err) : Emits (Mqtt.throwE e : M α) (.err e) [] := by intro b; simp

theorem putBytes (s : Bytes) : Emits (Mqtt.putBytes s) (.ok ()) s := fun _ => rfl

theorem congr {m : M α} {o : Out α} {w w' : Bytes} (h : Emits m o w) (hw : w = w') :
    Emits m o w' := hw ▸ h

theorem unique {m : M α} {o o' : Out α} {w w' : Bytes} (h : Emits m o w) (h' : Emits m o' w') :
    o = o' ∧ w = w' := by
  have := (h []).symm.trans (h' [])
  simpa using this

end Emits

/-! ### Readers on well-formed input -/

/-- `m` consumes exactly `w` and gives `a`, whatever follows. -/
def Parses {α : Type} (m : M α) (w : Bytes) (a : α) : Prop := ∀ r, m (w ++ r) = (.ok a, r)

namespace Parses

variable {α β : Type}

theorem pure (a : α) : Parses (Pure.pure a : M α) [] a := by intro r; simp

theorem bind {m : M α} {f : α → M β} {a : α} {c : β} {w1 w2 : Bytes}
    (h1 : Parses m w1 a) (h2 : Parses (f a) w2 c) : Parses (m >>= f) (w1 ++ w2) c := by
  intro r; rw [List.append_assoc, M.bind_ok (h1 _), h2]

theorem bind_apply {m : M α} {f : α → M β} {a : α} {w : Bytes}
    (h1 : Parses m w a) (r : Bytes) : (m >>= f) (w ++ r) = f a r := M.bind_ok (h1 r)

theorem congr {m : M α} {a : α} {w w' : Bytes} (h : Parses m w a) (hw : w = w') :
    Parses m w' a := hw ▸ h

end Parses

/-! ### Readers on arbitrary input -/

/-- `m` returns `Ok` or `Err` on every input and what it leaves is a suffix of the input. -/
def Good {α : Type} (m : M α) : Prop :=
  ∀ b, (m b).1 ≠ .panic ∧ (m b).1 ≠ .diverge ∧ (m b).2 <:+ b

namespace Good

variable {α β : Type}

theorem pure (a : α) : Good (Pure.pure a : M α) := by intro b; simp

theorem throwE (e : Err) : Good (Mqtt.throwE e : M α) := by intro b; simp

theorem getBuf : Good Mqtt.getBuf := by intro b; simp [Mqtt.getBuf]

theorem bind {m : M α} {f : α → M β} (h1 : Good m) (h2 : ∀ a, Good (f a)) : Good (m >>= f) := by
  intro b
  obtain ⟨hp, hd, hs⟩ := h1 b
  rw [M.bind_apply]
  rcases hm : m b with ⟨o, b'⟩
  rw [hm] at hp hd hs
  cases o with
  | ok a =>
    obtain ⟨hp', hd', hs'⟩ := h2 a b'
    exact ⟨hp', hd', hs'.trans hs⟩
  | err e => simpa using hs
  | panic => simp at hp
  | diverge => simp at hd

theorem ite {c : Prop} [Decidable c] {m1 m2 : M α} (h1 : Good m1) (h2 : Good m2) :
    Good (if c then m1 else m2) := by split <;> assumption

theorem liftOut {o : Out α} (h1 : o ≠ .panic) (h2 : o ≠ .diverge) : Good (Mqtt.liftOut o) := by
  intro b; simp [h1, h2]

end Good

end Mqtt
