import Verif.Spec.Room
import Verif.Props.Relay
import Verif.Props.RoundTrip
import Verif.Props.Pipeline
/-
C72: how much payload a message has room for, and messages sent in parts.
-/
namespace Props

open Mqtt Spec

theorem part_body (p : Publish) (id : UInt16) (x : Bytes) :
    (body (.Publish (part p id x))).length =
      (body (.Publish (part p p.pkid []))).length + x.length := by
  have hu : ∀ x : UInt16, (u16 x).length = 2 := by intro x; simp [u16]
  have e : ∀ id x, body (.Publish (part p id x)) =
      str p.topic ++ (if p.qos = .AtMostOnce then [] else u16 id) ++
        optSection Spec.PublishProperties.toList p.properties ++ x := fun _ _ => rfl
  rw [e, e]
  simp only [List.length_append, List.length_nil, Nat.add_zero]
  by_cases h : p.qos = .AtMostOnce
  · rw [if_pos h, if_pos h]
  · rw [if_neg h, if_neg h, hu, hu]

theorem written_remLen {p : Publish} {b w : Bytes} {k n : Nat}
    (hw : (Packet.Publish p).write b = (.ok k, b ++ w)) (hn : RemLen w n) :
    Encodable (.Publish p) ∧ w = encode (.Publish p) ∧ n = (body (.Publish p)).length := by
  obtain ⟨he, -, h⟩ := write_ok_inv hw trivial (by simp [IsConnect])
  have h := List.append_cancel_left h
  refine ⟨he, h, ?_⟩
  have h2 : RemLen (encode (.Publish p)) (body (.Publish p)).length :=
    ⟨_, _, _, rfl, varint_rep he.2.2.1, rfl⟩
  rw [← h] at h2
  exact (remLen_unique (r := []) (r' := []) hn h2 rfl).2.1

theorem part_encodable {p : Publish} {id : UInt16} {x : Bytes}
    (h : Encodable (.Publish (part p p.pkid []))) (hid : p.qos ≠ .AtMostOnce → id ≠ 0)
    (hx : (body (.Publish (part p p.pkid []))).length + x.length ≤ 268435455) :
    Encodable (.Publish (part p id x)) := by
  refine ⟨h.1, h.2.1, ?_, hid⟩
  rw [part_body]; exact hx

/-- C72: if a message with empty payload can be written, with remaining length `n`, then so can the
message with any payload, and any packet identifier, as long as `n` and the payload together keep to
the limit of the protocol; its remaining length is the sum. Beyond that it is refused. -/
theorem C72_room (p : Publish) (b w : Bytes) (k n : Nat)
    (hw : (Packet.Publish (part p p.pkid [])).write b = (.ok k, b ++ w)) (hn : RemLen w n)
    (id : UInt16) (hid : p.qos ≠ .AtMostOnce → id ≠ 0) (x buf : Bytes) :
    (n + x.length ≤ 268435455 → ∃ w',
      (Packet.Publish (part p id x)).write buf = (.ok w'.length, buf ++ w') ∧
      RemLen w' (n + x.length)) ∧
    (268435455 < n + x.length → ∃ buf',
      (Packet.Publish (part p id x)).write buf = (.err .PayloadTooLong, buf')) := by
  obtain ⟨he, rfl, rfl⟩ := written_remLen hw hn
  constructor
  · intro hx
    have h1 := part_encodable he hid hx
    refine ⟨_, write_encode h1 trivial (by simp [IsConnect]), ?_⟩
    rw [← part_body p id x]
    exact ⟨_, _, _, rfl, varint_rep h1.2.2.1, rfl⟩
  · intro hx
    obtain ⟨e, b', h1, h2⟩ := C20_refusal_partial (.Publish (part p id x)) buf (by
      intro h
      have := h.2.2.1
      rw [part_body] at this
      unfold maxVarint at this
      omega) (by simp [Legacy])
    rcases h2 with ⟨-, s, hs, hl⟩ | ⟨rfl, -⟩ | ⟨-, q, hq, h3, h4⟩
    · exfalso
      rcases hs with hs | ⟨q, hq, hs⟩
      · have := he.1 s hs
        omega
      · have := fits_strings (he.2.1 q hq) s hs
        omega
    · exact ⟨_, h1⟩
    · cases hq
      exact absurd h4 (hid h3)

/-- C72: and a message that cannot be written with empty payload cannot be written with any. -/
theorem C72_no_room (p : Publish) (id : UInt16) (x b : Bytes) (k : Nat) (b' : Bytes)
    (h : (Packet.Publish (part p id x)).write b = (.ok k, b')) (buf : Bytes) :
    ∃ w, (Packet.Publish (part p id [])).write buf = (.ok w.length, buf ++ w) := by
  have he := encodable_of_ok h
  refine ⟨_, write_encode (p := .Publish (part p id [])) ⟨he.1, he.2.1, ?_, he.2.2.2⟩ trivial (by simp [IsConnect])⟩
  have h1 := he.2.2.1
  rw [part_body] at h1
  rw [part_body, List.length_nil]
  omega

theorem part_survives {mode : StrMode} {p : Publish} {id : UInt16} {x : Bytes}
    (hs : SurvivesAlone mode none (.Publish (part p p.pkid [])))
    (hid : p.qos ≠ .AtMostOnce → id ≠ 0)
    (hx : (body (.Publish (part p p.pkid []))).length + x.length ≤ 268435455) :
    Encodable (.Publish (part p id x)) ∧ StringsOk mode (.Publish (part p id x)) ∧
      Readable (.Publish (part p id x)) := by
  obtain ⟨he, h1, h2, -⟩ := (C12_survives_iff mode _).1 hs
  exact ⟨part_encodable he hid hx, h1, h2⟩

/-- C72: if the message with empty payload, of remaining length `n`, is read back, then with any
payload a receiver with limit `m` reads exactly it, if `n` and the payload together are at most `m`;
if not, it refuses it for its size and leaves it in the stream. -/
theorem C72_read (mode : StrMode) (p : Publish) (b w : Bytes) (k n : Nat)
    (hw : (Packet.Publish (part p p.pkid [])).write b = (.ok k, b ++ w)) (hn : RemLen w n)
    (hs : SurvivesAlone mode none (.Publish (part p p.pkid [])))
    (id : UInt16) (x buf w' : Bytes) (k' : Nat)
    (hw' : (Packet.Publish (part p id x)).write buf = (.ok k', buf ++ w')) (m : Nat) (r : Bytes) :
    Packet.read mode (some m) (w' ++ r) =
      if n + x.length ≤ m then (.ok (.Publish (partSeen p id x)), r)
      else (.err (.PayloadSizeLimitExceeded (n + x.length) m), w' ++ r) := by
  obtain ⟨-, rfl, rfl⟩ := written_remLen hw hn
  obtain ⟨he, -, h⟩ := write_ok_inv hw' trivial (by simp [IsConnect])
  have h := List.append_cancel_left h
  subst h
  have hl : (body (.Publish (part p p.pkid []))).length + x.length ≤ 268435455 := by
    rw [← part_body p id x]; exact he.2.2.1
  obtain ⟨-, h2, h3⟩ := part_survives hs he.2.2.2 hl
  by_cases hm : (body (.Publish (part p p.pkid []))).length + x.length ≤ m
  · rw [if_pos hm]
    have hm' : Admits (some m) (body (.Publish (part p id x))).length := by
      intro _ e; cases e; rw [part_body]; exact hm
    exact read_encode he h2 h3 hm' r
  · rw [if_neg hm]
    have := C18_over_limit mode m _ (byte1 (.Publish (part p id x))) _
      (body (.Publish (part p id x)) ++ r) (varint_rep he.2.2.1) (by rw [part_body]; omega)
    have e : encode (.Publish (part p id x)) ++ r = byte1 (.Publish (part p id x)) ::
        (varint (body (.Publish (part p id x))).length ++ (body (.Publish (part p id x)) ++ r)) := by
      rw [← List.append_assoc]; rfl
    rw [e, this, part_body]

/-- C72: messages sent in parts: any number of parts, each with its own packet identifier and each
keeping to the receiver's limit, are written one after the other, behind anything, and are read in
order, all of them and whatever follows them. -/
theorem C72_parts (mode : StrMode) (p : Publish) (b w : Bytes) (k n : Nat)
    (hw : (Packet.Publish (part p p.pkid [])).write b = (.ok k, b ++ w)) (hn : RemLen w n)
    (hs : SurvivesAlone mode none (.Publish (part p p.pkid []))) (m : Nat) (hm : m ≤ 268435455)
    (xs : List (UInt16 × Bytes)) (hid : ∀ x ∈ xs, p.qos ≠ .AtMostOnce → x.1 ≠ 0)
    (hx : ∀ x ∈ xs, n + x.2.length ≤ m) (buf : Bytes) :
    ∃ out, WriteAll (xs.map fun x => .Publish (part p x.1 x.2)) buf (buf ++ out) ∧
      ∀ r, ReadAll mode (some m) (out ++ r)
        (xs.map fun x => .Publish (partSeen p x.1 x.2)) r := by
  induction xs generalizing buf with
  | nil => exact ⟨[], by rw [List.append_nil]; exact .nil _, fun r => .nil _⟩
  | cons x xs ih =>
    have h1 := hx x (.head _)
    obtain ⟨w', h2, -⟩ := (C72_room p b w k n hw hn x.1 (hid x (.head _)) x.2 buf).1 (by omega)
    obtain ⟨out, h3, h4⟩ := ih (fun y hy => hid y (.tail _ hy)) (fun y hy => hx y (.tail _ hy))
      (buf ++ w')
    refine ⟨w' ++ out, ?_, fun r => ?_⟩
    · rw [← List.append_assoc]
      exact .cons h2 h3
    · have := C72_read mode p b w k n hw hn hs x.1 x.2 buf w' _ h2 m (out ++ r)
      rw [if_pos h1] at this
      rw [List.append_assoc]
      exact .cons this (h4 r)

theorem flatten_bound {c : Nat} (xs : List Bytes) (h : ∀ x ∈ xs, x.length ≤ c) :
    xs.flatten.length ≤ xs.length * c := by
  induction xs with
  | nil => simp
  | cons x xs ih =>
    have h1 := h x (.head _)
    have h2 := ih fun y hy => h y (.tail _ hy)
    rw [List.flatten_cons, List.length_append, List.length_cons, Nat.add_mul, Nat.one_mul]
    omega

theorem split_exists (c : Nat) (k : Nat) (x : Bytes) (h : x.length ≤ k * c) :
    ∃ xs : List Bytes, xs.length = k ∧ xs.flatten = x ∧ ∀ y ∈ xs, y.length ≤ c := by
  induction k generalizing x with
  | zero =>
    have : x = [] := List.eq_nil_of_length_eq_zero (by omega)
    exact ⟨[], rfl, by simp [this], by simp⟩
  | succ k ih =>
    rw [Nat.add_mul, Nat.one_mul] at h
    obtain ⟨xs, h1, h2, h3⟩ := ih (x.drop c) (by rw [List.length_drop]; omega)
    refine ⟨x.take c :: xs, by simp [h1], by simp [h2], ?_⟩
    intro y hy
    cases hy with
    | head => rw [List.length_take]; omega
    | tail _ hy => exact h3 y hy

/-- C72: how many parts are needed: a payload can be sent in `c` parts that a receiver with limit `m`
reads if and only if it has at most `c * (m - n)` bytes. -/
theorem C72_count (mode : StrMode) (p : Publish) (b w : Bytes) (k n : Nat)
    (hw : (Packet.Publish (part p p.pkid [])).write b = (.ok k, b ++ w)) (hn : RemLen w n)
    (hs : SurvivesAlone mode none (.Publish (part p p.pkid []))) (m : Nat) (hnm : n ≤ m)
    (hm : m ≤ 268435455) (payload : Bytes) (c : Nat) :
    (∃ xs : List Bytes, xs.length = c ∧ xs.flatten = payload ∧
      ∀ x ∈ xs, ∃ k' w' q, (Packet.Publish (part p p.pkid x)).write [] = (.ok k', w') ∧
        Packet.read mode (some m) w' = (.ok q, [])) ↔
    payload.length ≤ c * (m - n) := by
  have hid : p.qos ≠ .AtMostOnce → p.pkid ≠ 0 := (encodable_of_ok hw).2.2.2
  constructor
  · rintro ⟨xs, rfl, rfl, h⟩
    refine flatten_bound xs fun x hx => ?_
    obtain ⟨k', w', q, h1, h2⟩ := h x hx
    have := C72_read mode p b w k n hw hn hs p.pkid x [] w' k' h1 m []
    rw [List.append_nil] at this
    rw [this] at h2
    by_cases hc : n + x.length ≤ m
    · omega
    · rw [if_neg hc] at h2; cases h2
  · intro h
    obtain ⟨xs, h1, h2, h3⟩ := split_exists (m - n) c payload h
    refine ⟨xs, h1, h2, fun x hx => ?_⟩
    have h4 := h3 x hx
    obtain ⟨w', h5, -⟩ := (C72_room p b w k n hw hn p.pkid hid x []).1 (by omega)
    have := C72_read mode p b w k n hw hn hs p.pkid x [] w' _ h5 m []
    rw [if_pos (by omega), List.append_nil] at this
    exact ⟨_, w', _, h5, this⟩

/-- A QoS 1 message to topic `t`: remaining length 6 without payload, so under a limit of 8 a payload
of three bytes needs two parts. -/
example :
    let p : Publish := {
      dup := false, qos := .AtLeastOnce, retain := false, topic := [0x74], pkid := 1
      payload := [1, 2, 3], properties := none }
    ∃ w, (Packet.Publish (part p p.pkid [])).write [] = (.ok 8, [] ++ w) ∧ RemLen w 6 ∧
      SurvivesAlone .utf8 none (.Publish (part p p.pkid [])) ∧
      Packet.read .utf8 (some 8) [0x32, 8, 0, 1, 0x74, 0, 9, 0, 1, 2, 0x32, 7, 0, 1, 0x74, 0, 10, 0, 3] =
        (.ok (.Publish (partSeen p 9 [1, 2])), [0x32, 7, 0, 1, 0x74, 0, 10, 0, 3]) :=
  ⟨[0x32, 6, 0, 1, 0x74, 0, 1, 0], by decide +kernel,
    ⟨0x32, [6], [0, 1, 0x74, 0, 1, 0], rfl, varintRep_small 6 (by decide), rfl⟩,
    ⟨8, [0x32, 6, 0, 1, 0x74, 0, 1, 0], by decide +kernel, by decide +kernel⟩, by decide +kernel⟩

end Props
