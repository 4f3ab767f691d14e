import Verif.Spec.SizeLimit
import Verif.Props.Framing
import Verif.Props.Writing
/-
C60: the size a sender sees and the limit a receiver sets.
-/
namespace Props

open Mqtt Spec

theorem write_head {p : Packet} {b b' : Bytes} {n : Nat} (h : p.write b = (.ok n, b'))
    (hb : IsConnect p → b = []) :
    ∃ b1 k rest, b' = b ++ b1 :: (varint k ++ rest) ∧ k ≤ maxVarint ∧
      n = 1 + (varint k).length + k := by
  by_cases hs : Sound p
  · obtain ⟨he, rfl, rfl⟩ := write_ok_inv h hs hb
    refine ⟨byte1 p, (body p).length, body p, rfl, he.2.2.1, ?_⟩
    simp [encode, frame]; omega
  · obtain ⟨d, rfl⟩ := unsound_cases hs
    replace h : d.write b = (.ok n, b') := h
    have h0 : varint 0 = [0] := by rw [varint, if_pos (by omega)]; rfl
    have h1 : varint 1 = [1] := by rw [varint, if_pos (by omega)]; rfl
    rcases unsound_emits hs with ⟨-, -, hw⟩ | ⟨q, -, -, hw⟩
    · rw [hw b] at h
      simp only [Prod.mk.injEq, Out.ok.injEq] at h
      obtain ⟨rfl, rfl⟩ := h
      exact ⟨0xE0, 1, [disconnectCode d.reason_code, 0], by rw [h1]; rfl, by decide, by rw [h1]; rfl⟩
    · rw [hw b] at h
      simp only [Prod.mk.injEq, Out.ok.injEq] at h
      obtain ⟨rfl, rfl⟩ := h
      exact ⟨0xE0, 0, [], by rw [h0]; rfl, by decide, by rw [h0]; rfl⟩

theorem headerSize_eq {n k : Nat} (hk : k ≤ maxVarint) (hn : n = 1 + (varint k).length + k) :
    headerSize n = 1 + (varint k).length := by
  have hk : k ≤ 268435455 := hk
  have hpos := varint_length_pos k
  have h4 := varint_length_le (n := k) (k := 3) (by omega)
  unfold headerSize
  by_cases a : k < 128
  · have := varint_length_le (n := k) (k := 0) (by omega)
    rw [if_pos (by omega)]
    omega
  · have g1 := varint_length_ge (n := k) (k := 1) (by omega)
    rw [if_neg (by omega)]
    by_cases a : k < 16384
    · have := varint_length_le (n := k) (k := 1) (by omega)
      rw [if_pos (by omega)]
      omega
    · have g2 := varint_length_ge (n := k) (k := 2) (by omega)
      rw [if_neg (by omega)]
      by_cases a : k < 2097152
      · have := varint_length_le (n := k) (k := 2) (by omega)
        rw [if_pos (by omega)]
        omega
      · have g3 := varint_length_ge (n := k) (k := 3) (by omega)
        rw [if_neg (by omega)]
        omega

/-- C60, exactly: a packet for which `write` reported `n` bytes is refused for its size by a reader
with limit `m` if and only if `n` is above `m` plus the size of the fixed header. If it is refused,
the error carries the size without fixed header and the limit, and everything stays in the stream;
if not, it is read as without limit. -/
theorem C60_exact (mode : StrMode) (p : Packet) (b w r : Bytes) (n m : Nat)
    (hw : p.write b = (.ok n, b ++ w)) (hb : IsConnect p → b = []) :
    Packet.read mode (some m) (w ++ r) =
      if m + headerSize n < n then (.err (.PayloadSizeLimitExceeded (n - headerSize n) m), w ++ r)
      else Packet.read mode none (w ++ r) := by
  obtain ⟨b1, k, rest, he, hk, hn⟩ := write_head hw hb
  have he := List.append_cancel_left he
  subst he
  have hh := headerSize_eq hk hn
  have hv := varint_rep hk
  split
  · have := C18_over_limit mode m k b1 (varint k) (rest ++ r) hv (by omega)
    have hk' : n - headerSize n = k := by omega
    rw [hk']
    simpa using this
  · refine C18_within_limit mode m _ ?_
    intro b1' v' k' r' he hv'
    simp only [List.cons_append, List.append_assoc, List.cons.injEq] at he
    obtain ⟨-, rfl, -⟩ := varintRep_unique hv hv' he.2
    omega

/-- C60: so a sender that keeps within the receiver's limit, counting the whole packet as MQTT 5's
Maximum Packet Size does, is never refused for the size of a packet; -/
theorem C60_within (mode : StrMode) (p : Packet) (b w r : Bytes) (n m : Nat)
    (hw : p.write b = (.ok n, b ++ w)) (hb : IsConnect p → b = []) (hn : n ≤ m) :
    Packet.read mode (some m) (w ++ r) = Packet.read mode none (w ++ r) := by
  rw [C60_exact mode p b w r n m hw hb, if_neg]
  omega

/-- and the receiver accepts packets up to 2 to 5 bytes above the limit, but none that is more than
5 bytes above. -/
theorem C60_over (mode : StrMode) (p : Packet) (b w r : Bytes) (n m : Nat)
    (hw : p.write b = (.ok n, b ++ w)) (hb : IsConnect p → b = []) :
    (n ≤ m + 2 → Packet.read mode (some m) (w ++ r) = Packet.read mode none (w ++ r)) ∧
    (m + 5 < n → ∃ k, m < k ∧
      Packet.read mode (some m) (w ++ r) = (.err (.PayloadSizeLimitExceeded k m), w ++ r)) := by
  have h2 : 2 ≤ headerSize n ∧ headerSize n ≤ 5 := by
    unfold headerSize
    split
    · omega
    · split
      · omega
      · split <;> omega
  rw [C60_exact mode p b w r n m hw hb]
  refine ⟨fun h => if_neg (by omega), fun h => ⟨n - headerSize n, by omega, if_pos (by omega)⟩⟩

/-- The hypotheses can be met: a PUBLISH of 7 bytes, of which 5 are counted, passes a limit of 5 and
is refused by a limit of 4. -/
example :
    let p : Packet := .Publish {
      dup := false, qos := .AtMostOnce, retain := false, topic := [0x61], pkid := 0, payload := [1],
      properties := none }
    p.write [9] = (.ok 7, [9] ++ [0x30, 5, 0, 1, 0x61, 0, 1]) ∧
    (Packet.read .utf8 (some 5) [0x30, 5, 0, 1, 0x61, 0, 1]) = (.ok p, []) ∧
    (Packet.read .utf8 (some 4) [0x30, 5, 0, 1, 0x61, 0, 1]) =
      (.err (.PayloadSizeLimitExceeded 5 4), [0x30, 5, 0, 1, 0x61, 0, 1]) := by
  decide +kernel

end Props
