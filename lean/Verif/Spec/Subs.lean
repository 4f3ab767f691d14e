import Verif.Spec.Packet
/-
Vocabulary for C79: subscribing and unsubscribing.
-/
namespace Spec

open Mqtt

/-- The topic filters in a SUBSCRIBE or an UNSUBSCRIBE. -/
def filtersOf : Packet → List Bytes
  | .Subscribe p => p.filters.map (·.path)
  | .Unsubscribe p => p.filters
  | _ => []

/-- A SUBSCRIBE without properties. -/
def subscribe (pkid : UInt16) (filters : List Filter) : Packet :=
  .Subscribe { pkid, filters, properties := none }

/-- An UNSUBSCRIBE without properties. -/
def unsubscribe (pkid : UInt16) (filters : List Bytes) : Packet :=
  .Unsubscribe { pkid, filters, properties := none }

/-- The sum of the lengths of the filters, with `k` bytes more for each. -/
def filterSize (k : Nat) (l : List Bytes) : Nat := (l.map fun t => k + t.length).sum

end Spec
