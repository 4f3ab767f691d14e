import Verif.Props.Forward
import Verif.Props.Pipeline
/-
C63: a relay. Packets that were read from one stream are written, in order, into an outgoing buffer,
and the next node reads them from there.
-/
namespace Props

open Mqtt Spec

/-- What is known of a packet that was read under a limit. -/
theorem read_limit_facts {mode : StrMode} {m : Nat} {b r : Bytes} {p : Packet}
    (h : Packet.read mode (some m) b = (.ok p, r)) :
    ∃ n, n ≤ m ∧ Facts mode n p ∧ 1 + (varint n).length + n + r.length ≤ b.length := by
  obtain ⟨b1, v, bd, rfl, hv, hm, -, -⟩ := read_ok_iff.1 h
  obtain ⟨b1', v', bd', he, hv', -, hf⟩ := read_facts h
  simp only [List.cons.injEq, List.append_assoc] at he
  obtain ⟨-, he⟩ := he
  obtain ⟨rfl, hn, -⟩ := varintRep_unique hv hv' he
  rw [← hn] at hf
  refine ⟨bd.length, Nat.not_lt.1 fun hlt => hm ⟨m, rfl, hlt⟩, hf, ?_⟩
  have := varint_minimal hv
  simp only [List.length_cons, List.length_append]
  omega

/-- Four bytes more in the body are at most one byte more in the length field. -/
theorem varint_length_add4 (n : Nat) : (varint (n + 4)).length ≤ (varint n).length + 1 := by
  induction n using Nat.strongRecOn with
  | ind n ih =>
    by_cases h : n < 128
    · have e : varint n = [UInt8.ofNat n] := by rw [varint, if_pos h]
      rw [e]
      by_cases h4 : n + 4 < 128
      · rw [varint, if_pos h4]; simp
      · rw [varint, if_neg h4, varint, if_pos (by omega)]; simp
    · have h1 := ih (n / 128) (by omega)
      have h2 : (varint ((n + 4) / 128)).length ≤ (varint (n / 128 + 4)).length :=
        varint_length_mono (by omega)
      have e1 : (varint n).length = (varint (n / 128)).length + 1 := by
        rw [varint, if_neg h]; simp
      have e2 : (varint (n + 4)).length = (varint ((n + 4) / 128)).length + 1 := by
        rw [varint, if_neg (by omega)]; simp
      omega

/-- C63: whatever was read under a limit that leaves 4 bytes to the limit of the protocol can be
written, behind anything; at most 5 bytes are added for each packet. -/
theorem C63_written (mode : StrMode) (m : Nat) (hm : m ≤ 268435451) (b r old : Bytes)
    (ps : List Packet) (h : ReadAll mode (some m) b ps r) :
    ∃ buf, WriteAll ps old buf ∧
      buf.length + r.length ≤ old.length + b.length + 5 * ps.length := by
  induction h generalizing old with
  | nil b => exact ⟨old, .nil _, by simp⟩
  | @cons p ps b b1 b2 h1 _ ih =>
    obtain ⟨n, hn, hf, hl⟩ := read_limit_facts h1
    have hbody := hf.len
    have he := decoded_encodable hf (show _ ≤ 268435455 by omega)
    obtain ⟨k, b', hw, -, hb'⟩ := decoded_added hf he old
    obtain ⟨buf, h2, h3⟩ := ih b'
    refine ⟨buf, .cons hw h2, ?_⟩
    have e : (encode p).length = 1 + (varint (body p).length).length + (body p).length := by
      simp [encode, frame]; omega
    have h4 := varint_length_mono hbody
    have h5 := varint_length_add4 n
    simp only [List.length_cons]
    omega

/-- The packets of a stream, one by one. -/
theorem readAll_mem {mode : StrMode} {m : Nat} {b r : Bytes} {ps : List Packet}
    (h : ReadAll mode (some m) b ps r) :
    ∀ p ∈ ps, ∃ b1 b2, Packet.read mode (some m) b1 = (.ok p, b2) := by
  induction h with
  | nil b => simp
  | @cons p ps b b1 b2 h1 _ ih =>
    intro q hq
    rcases List.mem_cons.1 hq with rfl | hq
    · exact ⟨b, b1, h1⟩
    · exact ih q hq

/-- Reading to the end is deterministic. -/
theorem readAll_unique {mode : StrMode} {max : Option Nat} {b : Bytes} {ps qs : List Packet}
    (h : ReadAll mode max b ps []) (h' : ReadAll mode max b qs []) : ps = qs := by
  have hnil : ∀ p r, Packet.read mode max [] ≠ (.ok p, r) := by
    intro p r hr
    obtain ⟨b1, v, bd, he, -⟩ := read_ok_iff.1 hr
    cases he
  generalize hr : ([] : Bytes) = r at h
  induction h generalizing qs with
  | nil b =>
    subst hr
    cases h' with
    | nil => rfl
    | cons h1 => exact absurd h1 (hnil _ _)
  | @cons p ps b b1 b2 h1 _ ih =>
    cases h' with
    | nil => exact absurd h1 (hnil _ _)
    | cons h2 h3 =>
      rw [h1, Prod.mk.injEq, Out.ok.injEq] at h2
      obtain ⟨rfl, rfl⟩ := h2
      rw [ih h3 hr]

theorem writeAll_unique {b b1 b2 : Bytes} {ps : List Packet} (h : WriteAll ps b b1)
    (h' : WriteAll ps b b2) : b1 = b2 := by
  induction h generalizing b2 with
  | nil b => cases h'; rfl
  | @cons p ps b b1 b3 n h1 _ ih =>
    cases h' with
    | cons h2 h3 =>
      rw [h1, Prod.mk.injEq] at h2
      obtain ⟨-, rfl⟩ := h2
      exact ih h3

/-- A decoded packet survives on its own, under a limit that admits it, unless it is one of the two
exceptions. -/
theorem survives_iff {mode : StrMode} {max max' : Option Nat} {b r : Bytes} {p : Packet}
    (h : Packet.read mode max' b = (.ok p, r)) (hl : (body p).length ≤ maxVarint)
    (hm : Admits max (body p).length) : SurvivesAlone mode max p ↔ ¬ Unstable p := by
  obtain ⟨_, _, _, _, _, _, hf⟩ := read_facts h
  constructor
  · rintro ⟨n, w, hw, hr⟩
    rw [hf.norm] at hr
    refine (C29_stable_iff mode max' b r p h hl).1 ⟨n, w, hw, fun s => ?_⟩
    refine (read_written_iff hw s s).2 ⟨?_, rfl⟩
    obtain ⟨b1, v, bd, e, hv, -, x⟩ := read_ok_iff.1 hr
    exact read_ok_iff.2 ⟨b1, v, bd, e, hv, (by rintro ⟨_, h, -⟩; cases h), x⟩
  · intro hu
    obtain ⟨n, w, hw, hr⟩ := (C29_stable_iff mode max' b r p h hl).2 hu
    have hs : Sound p := by
      cases p with
      | Disconnect d =>
        cases hp : d.properties with
        | none =>
          simp only [Sound, hp]
          exact Classical.byContradiction fun hr => hu ⟨hp, hr⟩
        | some q => simp only [Sound, hp]; exact hf.shape.2.2.2 q hp
      | _ => trivial
    obtain ⟨he, -, rfl⟩ := write_ok_inv hw hs (fun _ => rfl)
    refine ⟨n, _, hw, ?_⟩
    have hr := hr []
    rw [List.append_nil] at hr
    obtain ⟨b1, v, bd, e, hv, -, x⟩ := read_ok_iff.1 hr
    rw [hf.norm]
    refine read_ok_iff.2 ⟨b1, v, bd, e, hv, ?_, x⟩
    rintro ⟨k, hk, hlt⟩
    have hrep := encode_body_rep p he
    have hbd : bd.length = (body p).length := by
      have e' : varint (body p).length ++ body p = v ++ (bd ++ []) := by
        simpa [encode, frame] using (List.cons.inj e).2
      exact (varintRep_unique hv hrep e'.symm).2.1
    have := hm k hk
    omega

/-- C63, exactly: a relay reads packets under a limit `m` that leaves 4 bytes to the limit of the
protocol and writes them, in order, into an empty buffer (CONNECT only as the first). The next node,
with a limit of at least `m + 4`, reads the very same packets, whatever follows, if and only if none
of them is one of the two exceptions of C29. -/
theorem C63_relay_iff (mode : StrMode) (m : Nat) (hm : m ≤ 268435451) (b r buf r' : Bytes)
    (ps : List Packet) (h : ReadAll mode (some m) b ps r) (hc : ∀ p ∈ ps.tail, ¬ IsConnect p)
    (hw : WriteAll ps [] buf) (max : Option Nat) (hm' : Admits max (m + 4)) :
    ReadAll mode max (buf ++ r') ps r' ↔ ∀ p ∈ ps, ¬ Unstable p := by
  have hmem := readAll_mem h
  have hn : ps.map norm = ps := by
    conv => rhs; rw [← List.map_id ps]
    refine List.map_congr_left fun p hp => ?_
    obtain ⟨_, _, h1⟩ := hmem p hp
    obtain ⟨_, _, hf, _⟩ := read_limit_facts h1
    exact hf.norm
  have hp := C12_pipeline_iff mode max ps buf r' hw hc
  rw [hn] at hp
  rw [hp]
  refine forall_congr' fun p => forall_congr' fun hpm => ?_
  obtain ⟨b1, b2, h1⟩ := hmem p hpm
  obtain ⟨n, hnm, hf, _⟩ := read_limit_facts h1
  have hb := hf.len
  exact survives_iff h1 (show _ ≤ 268435455 by omega)
    fun k hk => Nat.le_trans (show _ ≤ m + 4 by omega) (hm' k hk)

/-- C63: the second relay of a chain, and every further one, receives and sends the same bytes: if all
that the first one sent is read and written again, the packets and the bytes are the same. -/
theorem C63_fixpoint (mode : StrMode) (m : Nat) (hm : m ≤ 268435451) (b r buf buf' : Bytes)
    (ps qs : List Packet) (h : ReadAll mode (some m) b ps r) (hc : ∀ p ∈ ps.tail, ¬ IsConnect p)
    (hu : ∀ p ∈ ps, ¬ Unstable p) (hw : WriteAll ps [] buf)
    (max : Option Nat) (hm' : Admits max (m + 4))
    (hr : ReadAll mode max buf qs []) (hw' : WriteAll qs [] buf') : qs = ps ∧ buf' = buf := by
  have h1 := (C63_relay_iff mode m hm b r buf [] ps h hc hw max hm').2 hu
  rw [List.append_nil] at h1
  have e := readAll_unique hr h1
  subst e
  exact ⟨rfl, writeAll_unique hw' hw⟩

/-- The hypotheses are met: a PINGREQ whose length field has two bytes, a PUBACK with a reason and no
property length, and a PUBLISH arrive, and something behind them. The relay sends one byte less for
the first, one more for the second and the same bytes for the third. -/
example :
    let ping := Packet.PingReq
    let ack := Packet.PubAck { pkid := 1, reason := .NoMatchingSubscribers, properties := none }
    let pub := Packet.Publish {
      dup := false, qos := .AtMostOnce, retain := true, topic := [0x74], pkid := 0,
      payload := [0x78], properties := none }
    ReadAll .utf8 (some 100) [0xC0, 0x80, 0, 0x40, 3, 0, 1, 0x10, 0x31, 5, 0, 1, 0x74, 0, 0x78, 0xFF]
      [ping, ack, pub] [0xFF] ∧
    (∀ p ∈ [ping, ack, pub], ¬ IsConnect p ∧ ¬ Unstable p) ∧
    WriteAll [ping, ack, pub] [] [0xC0, 0, 0x40, 4, 0, 1, 0x10, 0, 0x31, 5, 0, 1, 0x74, 0, 0x78] := by
  refine ⟨
    .cons (b1 := [0x40, 3, 0, 1, 0x10, 0x31, 5, 0, 1, 0x74, 0, 0x78, 0xFF]) (by decide +kernel)
      (.cons (b1 := [0x31, 5, 0, 1, 0x74, 0, 0x78, 0xFF]) (by decide +kernel)
        (.cons (by decide +kernel) (.nil _))),
    ?_, .cons (n := 2) (b1 := [0xC0, 0]) (by decide +kernel)
      (.cons (n := 6) (b1 := [0xC0, 0, 0x40, 4, 0, 1, 0x10, 0]) (by decide +kernel)
        (.cons (n := 7) (by decide +kernel) (.nil _)))⟩
  intro p hp
  simp only [List.mem_cons, List.not_mem_nil, or_false] at hp
  rcases hp with rfl | rfl | rfl
  · exact ⟨fun h => h, fun h => h⟩
  · exact ⟨fun h => h, fun h => h⟩
  · exact ⟨fun h => h, fun h => h fun pre p post he => absurd he (by simp [optList])⟩

end Props
