import Verif.Spec.Undo
import Verif.Props.Pipeline
/-
C76: a sender that takes back what a refused packet left in the buffer.
-/
namespace Props

open Mqtt Spec

theorem acceptable_iff (p : Packet) : acceptable p = true ↔ Encodable p := by
  rw [← C20_ok_iff p []]
  unfold acceptable
  generalize p.write [] = x
  obtain ⟨o, b⟩ := x
  cases o with
  | ok n => exact ⟨fun _ => ⟨n, b, rfl⟩, fun _ => rfl⟩
  | _ => exact ⟨(fun h => by cases h), (by rintro ⟨_, _, h⟩; cases h)⟩

/-- C76: after a refusal, the buffer cut back to its old length is the old buffer. -/
theorem C76_restored (p : Packet) (b b' : Bytes) (e : Err) (h : p.write b = (.err e, b')) :
    b'.take b.length = b := by
  obtain ⟨w, rfl⟩ := C21_prefix_partial p b b' e h
  simp

/-- C76: whatever packets are offered, the buffer is in the end what it would be if only the
acceptable ones had been written; whether a packet is accepted does not depend on the others. -/
theorem C76_sender (ps acc : List Packet) (b b' : Bytes) (h : Sends ps b acc b') :
    WriteAll acc b b' ∧ acc = ps.filter acceptable := by
  induction h with
  | nil b => exact ⟨.nil b, rfl⟩
  | @accepted p ps acc b b1 b2 n h1 _ ih =>
    have : acceptable p = true := (acceptable_iff p).2 (encodable_of_ok h1)
    rw [List.filter_cons_of_pos this, ← ih.2]
    exact ⟨.cons h1 ih.1, rfl⟩
  | @refused p ps acc b b1 b2 e h1 _ ih =>
    have : ¬ acceptable p = true := by
      intro h
      obtain ⟨n, b', h2⟩ := (C20_ok_iff p b).2 ((acceptable_iff p).1 h)
      rw [h1] at h2; cases h2
    rw [List.filter_cons_of_neg this, ← ih.2]
    rw [C76_restored p b b1 e h1] at ih
    exact ⟨ih.1, rfl⟩

/-- C76: such a sender is never stuck, if no CONNACK has an MQTT 3 return code (C22). -/
theorem C76_total (ps : List Packet) (hl : ∀ p ∈ ps, ¬ Legacy p) (b : Bytes) :
    ∃ acc b', Sends ps b acc b' := by
  induction ps generalizing b with
  | nil => exact ⟨[], b, .nil b⟩
  | cons p ps ih =>
    have ih := fun b => ih (fun q hq => hl q (.tail _ hq)) b
    generalize hx : p.write b = x
    obtain ⟨o, b1⟩ := x
    have ht := C22_write_total_partial p b (hl p (.head _))
    rw [hx] at ht
    rcases ht with ⟨n, h⟩ | ⟨e, h⟩
    · cases h
      obtain ⟨acc, b', h2⟩ := ih b1
      exact ⟨_, _, .accepted hx h2⟩
    · cases h
      obtain ⟨acc, b', h2⟩ := ih (b1.take b.length)
      exact ⟨_, _, .refused hx h2⟩

/-- C76: and the receiver reads exactly the accepted packets, in order, if each of them survives on
its own (C12) and a CONNECT is only the first. -/
theorem C76_received (mode : StrMode) (max : Option Nat) (ps acc : List Packet) (buf r : Bytes)
    (h : Sends ps [] acc buf) (hc : ∀ p ∈ acc.tail, ¬ IsConnect p) :
    ReadAll mode max (buf ++ r) (acc.map norm) r ↔ ∀ p ∈ acc, SurvivesAlone mode max p :=
  C12_pipeline_iff mode max acc buf r (C76_sender ps acc [] buf h).1 hc

/-- Without cutting back the next packet is lost: a PINGREQ written behind a refused PUBLISH becomes
a part of it. -/
theorem C76_careless :
    let p : Publish := {
      dup := false, qos := .AtLeastOnce, retain := false, topic := [0x61], pkid := 0, payload := []
      properties := none }
    Packet.write (.Publish p) [] = (.err .PacketIdZero, [0x32, 4, 0, 1, 0x61]) ∧
    Packet.write .PingReq [0x32, 4, 0, 1, 0x61] = (.ok 2, [0x32, 4, 0, 1, 0x61, 0xC0, 0]) ∧
    Packet.read .utf8 none [0x32, 4, 0, 1, 0x61, 0xC0, 0] = (.err .MalformedPacket, [0]) ∧
    Sends [.Publish p, .PingReq] [] [.PingReq] [0xC0, 0] :=
  ⟨by decide +kernel, by decide +kernel, by decide +kernel,
    .refused (b1 := [0x32, 4, 0, 1, 0x61]) (e := .PacketIdZero) (by decide +kernel)
      (.accepted (b1 := [0xC0, 0]) (n := 2) (by decide +kernel) (.nil _))⟩

end Props
