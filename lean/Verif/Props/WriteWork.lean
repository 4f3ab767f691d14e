import Verif.Proofs.CostWriteBound
import Verif.Spec.WriteWork
/-
C58: encoding takes a number of loop iterations linear in the bytes it adds.
-/
namespace Props

open Mqtt Spec

/-- C58: counting does not change the encoder: the counted encoder gives the outcome and leaves the
buffer of `Packet::write`. -/
theorem C58_same (p : Packet) (b : Bytes) : (Packet.writeC p b).1 = Packet.write p b :=
  congrFun (Packet.erase_writeC p) b

/-- C58: a call that succeeds executes at most two loop iterations for each byte it adds to the
buffer. -/
theorem C58_linear (p : Packet) (b b' : Bytes) (k : Nat) (h : Packet.write p b = (.ok k, b')) :
    writeWork p b + 2 * b.length ≤ 2 * b'.length := by
  rw [← C58_same] at h
  have := ((Packet.est_writeC p b).2 k b' h).2
  show (Packet.writeC p b).2 + _ ≤ _
  omega

/-- C58: whatever its outcome, a call executes at most seven loop iterations for each list entry of
the packet, and twelve more. -/
theorem C58_any_outcome (p : Packet) (b : Bytes) : writeWork p b ≤ 7 * listEntries p + 12 :=
  (Packet.est_writeC p b).1

/-- C58: the count misses no entry: a call that succeeds has executed an iteration for each entry of
a list of the packet. -/
theorem C58_counts (p : Packet) (b b' : Bytes) (k : Nat) (h : Packet.write p b = (.ok k, b')) :
    listEntries p ≤ writeWork p b := by
  rw [← C58_same] at h
  exact ((Packet.est_writeC p b).2 k b' h).1

/-- C58: writing packets one after the other into one buffer, as long as no write is refused,
executes at most two iterations for each byte that is in the buffer at the end. -/
theorem C58_session (ps : List Packet) (b b' : Bytes) (n : Nat) (h : WrittenAll ps b b' n) :
    n + 2 * b.length ≤ 2 * b'.length := by
  induction h with
  | nil => omega
  | cons hw _ ih => have := C58_linear _ _ _ _ hw; omega

/-! The hypotheses are met, and the bounds are nearly attained: a PUBLISH of 18 bytes with six
subscription identifiers takes 26 iterations, and one that is refused because the last of its
subscription identifiers is too large 13. -/

/-- A PUBLISH with the given subscription identifiers and no other property. -/
def manyIds (l : List Nat) : Packet :=
  .Publish {
    dup := false, qos := .AtMostOnce, retain := false, topic := [97], pkid := 0, payload := [],
    properties := some {
      payload_format_indicator := none, message_expiry_interval := none, topic_alias := none,
      response_topic := none, correlation_data := none, user_properties := [],
      subscription_identifiers := l, content_type := none } }

example : (Packet.write (manyIds [1, 2, 3, 4, 5, 6]) []).1 = .ok 18 ∧
    writeWork (manyIds [1, 2, 3, 4, 5, 6]) [] = 26 ∧
    listEntries (manyIds [1, 2, 3, 4, 5, 6]) = 6 := by decide +kernel

example : (Packet.write (manyIds [1, 2, 268435456]) []).1 = .err .PayloadTooLong ∧
    writeWork (manyIds [1, 2, 268435456]) [] = 13 := by decide +kernel

example : WrittenAll [.PingReq, manyIds [1]] [] [0xC0, 0, 0x30, 6, 0, 1, 97, 2, 0x0B, 1] 6 :=
  .cons (k := 2) (b1 := [0xC0, 0]) (by decide +kernel)
    (.cons (k := 8) (by decide +kernel) .nil)

end Props
