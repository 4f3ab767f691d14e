import Verif.Model.Packet
/-
What it means to execute a `while` loop, without fuel: a run is a finite derivation, and a loop that
never ends has none.
-/
namespace Spec

open Mqtt (Bytes Out)

/-- `While cond body s b (o, b')`: the loop `while cond { body }`, started with the locals `s` and the
buffer `b`, ends with the outcome `o` – the final locals, or the error or panic of a body – and
leaves the buffer `b'`. -/
inductive While {σ : Type} (cond : σ → Bytes → Prop) (body : σ → Bytes → Out σ × Bytes) :
    σ → Bytes → Out σ × Bytes → Prop
  | done {s b} : ¬ cond s b → While cond body s b (.ok s, b)
  | next {s b s' b' r} : cond s b → body s b = (.ok s', b') → While cond body s' b' r →
      While cond body s b r
  | error {s b e b'} : cond s b → body s b = (.err e, b') → While cond body s b (.err e, b')
  | panic {s b b'} : cond s b → body s b = (.panic, b') → While cond body s b (.panic, b')

/-- The outcome without the cursor. -/
def dropCursor {σ : Type} : Out (σ × Nat) → Out σ
  | .ok x => .ok x.1
  | .err e => .err e
  | .panic => .panic
  | .diverge => .diverge

/-- The body of a property loop, for example src/puback.rs:163-179: identifier byte, its property
type, then the `match`. -/
def propBody {σ : Type} (step : UInt8 → Mqtt.PropertyType → σ → Nat → Mqtt.M (σ × Nat)) (x : σ × Nat) :
    Mqtt.M (σ × Nat) := do
  let prop ← Mqtt.read_u8
  let ty ← Mqtt.liftOut (Mqtt.property prop)
  step prop ty x.1 (x.2 + 1)

/-- The property loop with the `match` `step` behaves, on every buffer, with every announced length,
and from every state of the locals, as `while cursor < properties_len { … }`. -/
def IsWhile {σ : Type} (step : UInt8 → Mqtt.PropertyType → σ → Nat → Mqtt.M (σ × Nat)) : Prop :=
  ∀ properties_len cursor s b o b',
    Mqtt.propLoop step properties_len (b.length + 1) cursor s b = (o, b') ↔
      ∃ o', o = dropCursor o' ∧
        While (fun x _ => x.2 < properties_len) (propBody step) (s, cursor) b (o', b')

/-- The body of a loop over a list, for example src/unsubscribe.rs:60-61. -/
def appendOne {α : Type} (one : Mqtt.M α) (acc : List α) : Mqtt.M (List α) := do
  let x ← one
  pure (acc ++ [x])

/-- `while bytes.has_remaining()` with a body that appends what `one` reads to a list. -/
def Entries {α : Type} (one : Mqtt.M α) (b : Bytes) (r : Out (List α) × Bytes) : Prop :=
  While (fun _ b => b ≠ []) (appendOne one) [] b r

end Spec
