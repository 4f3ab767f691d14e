import Verif.Spec.Log
import Verif.Props.Isolation
import Verif.Props.Pipeline
/-
C81: a log of packets survives crashes.
-/
namespace Props

open Mqtt Spec

/-- Where a cut falls among frames. -/
theorem cut_frames {P : Bytes → Prop} (hP : ∀ f, P f → f ≠ []) (fs : List Bytes)
    (hf : ∀ f ∈ fs, P f) (k : Nat) (hk : k ≤ fs.flatten.length) :
    ∃ i t, i ≤ fs.length ∧ fs.flatten.take k = (fs.take i).flatten ++ t ∧
      (t = [] ∨ ∃ f q, f ∈ fs ∧ f = t ++ q ∧ q ≠ []) ∧
      ∀ j, j ≤ fs.length → ((fs.take j).flatten.length ≤ k ↔ j ≤ i) := by
  induction fs generalizing k with
  | nil => exact ⟨0, [], by simp, by simp, .inl rfl, by simp⟩
  | cons f fs ih =>
    have hne := hP f (hf f (.head _))
    have hpos : 0 < f.length := List.length_pos_iff.2 hne
    rw [List.flatten_cons, List.length_append] at hk
    by_cases h : f.length ≤ k
    · obtain ⟨i, t, h1, h2, h3, h4⟩ := ih (fun g hg => hf g (.tail _ hg)) (k - f.length) (by omega)
      refine ⟨i + 1, t, by simp; omega, ?_, ?_, ?_⟩
      · rw [List.flatten_cons, List.take_append, List.take_of_length_le h, h2, List.take_succ_cons,
          List.flatten_cons, List.append_assoc]
      · rcases h3 with h3 | ⟨g, q, hg, h3⟩
        · exact .inl h3
        · exact .inr ⟨g, q, .tail _ hg, h3⟩
      · intro j hj
        cases j with
        | zero => simp
        | succ j =>
          have := h4 j (by simp at hj; omega)
          rw [List.take_succ_cons, List.flatten_cons, List.length_append]
          omega
    · refine ⟨0, f.take k, by simp, ?_, .inr ⟨f, f.drop k, .head _, ?_, ?_⟩, ?_⟩
      · rw [List.flatten_cons, List.take_append_of_le_length (by omega)]; simp
      · simp
      · intro he
        have := congrArg List.length he
        simp at this
        omega
      · intro j hj
        cases j with
        | zero => simp
        | succ j =>
          rw [List.take_succ_cons, List.flatten_cons, List.length_append]
          omega

theorem survivor_frame {mode : StrMode} {max : Option Nat} {w : Bytes} {q : Packet}
    (h : Packet.read mode max w = (.ok q, [])) : ∃ n, RemLen w n ∧ Admits max n := by
  obtain ⟨b1, v, bd, he, hv, hm, -, -⟩ := read_ok_iff.1 h
  refine ⟨bd.length, ⟨b1, v, bd, by simpa using he, hv, rfl⟩, fun m hm' => ?_⟩
  exact Nat.not_lt.1 fun hlt => hm ⟨m, hm', hlt⟩

theorem log_facts {mode : StrMode} {max : Option Nat} {xs : List (Packet × Bytes)}
    (hx : ∀ x ∈ xs, (∃ n, x.1.write [] = (.ok n, x.2)) ∧
      Packet.read mode max x.2 = (.ok (norm x.1), []))
    {k : Nat} (hk : k ≤ (bytesOf xs).length) {os : List (Out Packet)} {torn : Bytes}
    (hd : Drains mode max ((bytesOf xs).take k) os torn) :
    os.length ≤ xs.length ∧ os = (xs.take os.length).map (fun x => .ok (norm x.1)) ∧
    (bytesOf xs).take k = bytesOf (xs.take os.length) ++ torn ∧
    (∀ j, j ≤ xs.length → ((bytesOf (xs.take j)).length ≤ k ↔ j ≤ os.length)) ∧
    (torn ≠ [] → ∃ n, 1 ≤ n ∧
      Packet.read mode max torn = (.err (.InsufficientBytes n), torn)) := by
  have hframe : ∀ f ∈ xs.map (·.2), ∃ n, RemLen f n ∧ Admits max n := by
    intro f hf
    obtain ⟨x, hx', rfl⟩ := List.mem_map.1 hf
    exact survivor_frame (hx x hx').2
  obtain ⟨i, t, h1, h2, h3, h4⟩ := cut_frames (P := fun f => ∃ n, RemLen f n ∧ Admits max n)
    (fun f ⟨n, hf, _⟩ h => by subst h; exact absurd (remLen_ne_nil hf) (by simp)) _ hframe k hk
  rw [List.length_map] at h1
  have hno : ¬ ∃ f n s, t = f ++ s ∧ RemLen f n ∧ Admits max n := by
    rintro ⟨g, n, s, rfl, hg, -⟩
    rcases h3 with h3 | ⟨f, q, hf, he, hq⟩
    · have hg0 := (List.append_eq_nil_iff.1 h3).1
      subst hg0
      exact absurd (remLen_ne_nil hg) (by simp)
    · obtain ⟨n', hf', -⟩ := hframe f hf
      have := remLen_unique (r := []) (r' := s ++ q) hf' hg (by simp [he])
      have := List.append_eq_nil_iff.1 this.2.2.symm
      exact hq this.2
  have hd' : Drains mode max ((bytesOf xs).take k)
      (((xs.map (·.2)).take i).map (fun f => (Packet.read mode max f).1)) t :=
    (C61_frames_iff mode max _ _ _).2 ⟨(xs.map (·.2)).take i, by unfold bytesOf; exact h2,
      fun f hf => hframe f (List.mem_of_mem_take hf), rfl, hno⟩
  obtain ⟨rfl, rfl⟩ := drains_det hd hd'
  have hlen : (((xs.map (·.2)).take i).map (fun f => (Packet.read mode max f).1)).length = i := by
    simp; omega
  rw [hlen]
  refine ⟨h1, ?_, ?_, ?_, ?_⟩
  · rw [← List.map_take, List.map_map]
    refine List.map_congr_left fun x hx' => ?_
    simp [(hx x (List.mem_of_mem_take hx')).2]
  · rw [bytesOf, h2, bytesOf, List.map_take]
  · intro j hj
    rw [← h4 j (by simpa using hj), bytesOf, List.map_take]
  · intro hne
    rcases h3 with h3 | ⟨f, q, hf, he, hq⟩
    · exact absurd h3 hne
    · obtain ⟨n, ⟨b1, v, bd, hf', hv, rfl⟩, hm⟩ := hframe f hf
      obtain ⟨n, hn, hpos, -⟩ := C16_incomplete mode max b1 v bd _ q hv hm (hf'.symm.trans he) hq
      exact ⟨n, hpos, hn⟩

theorem log_inv {mode : StrMode} {max : Option Nat} {xs : List (Packet × Bytes)} {b : Bytes}
    (h : Log mode max xs b) :
    b = bytesOf xs ∧ ∀ x ∈ xs, (∃ n, x.1.write [] = (.ok n, x.2)) ∧
      Packet.read mode max x.2 = (.ok (norm x.1), []) := by
  induction h with
  | start => exact ⟨rfl, by simp⟩
  | append _ h1 h2 ih =>
    refine ⟨by rw [ih.1]; simp [bytesOf], fun x hx => ?_⟩
    rcases List.mem_append.1 hx with hx | hx
    · exact ih.2 x hx
    · cases List.mem_singleton.1 hx
      exact ⟨⟨_, h1⟩, h2⟩
  | @crash xs b torn os k _ hk hd ih =>
    obtain ⟨rfl, hx⟩ := ih
    obtain ⟨-, -, h3, -, -⟩ := log_facts hx hk hd
    refine ⟨?_, fun x hx' => hx x (List.mem_of_mem_take hx')⟩
    have hl := congrArg List.length h3
    rw [List.length_append, List.length_take, Nat.min_eq_left hk] at hl
    have : k - torn.length = (bytesOf (xs.take os.length)).length := by omega
    have h6 := congrArg (List.take (k - torn.length)) h3
    rw [List.take_take, Nat.min_eq_left (by omega), List.take_left' this.symm] at h6
    exact h6

/-- C81, contents: at any time, after any appends and crashes, the file is read as exactly the packets
appended and not lost, in order, and nothing is left. -/
theorem C81_contents (mode : StrMode) (max : Option Nat) (xs : List (Packet × Bytes)) (b : Bytes)
    (h : Log mode max xs b) :
    b = bytesOf xs ∧ ReadAll mode max b (xs.map fun x => norm x.1) [] := by
  obtain ⟨rfl, hx⟩ := log_inv h
  refine ⟨rfl, ?_⟩
  have := (C12_concat_iff mode max xs [] fun x hx' => (hx x hx').1).2 fun x hx' => by
    obtain ⟨⟨n, h1⟩, h2⟩ := hx x hx'
    exact ⟨n, _, h1, h2⟩
  rwa [List.append_nil] at this

/-- C81, crashes: whatever is lost of the file, what is found in the rest are exactly the packets of
which no byte is lost, in order; what is left behind them is nothing, or is recognised as incomplete. -/
theorem C81_crash (mode : StrMode) (max : Option Nat) (xs : List (Packet × Bytes)) (b : Bytes)
    (h : Log mode max xs b) (k : Nat) (hk : k ≤ b.length) :
    ∃ i torn, i ≤ xs.length ∧
      (∀ os r, Drains mode max (b.take k) os r ↔
        os = (xs.take i).map (fun x => .ok (norm x.1)) ∧ r = torn) ∧
      (∀ j, j ≤ xs.length → ((bytesOf (xs.take j)).length ≤ k ↔ j ≤ i)) ∧
      b.take k = bytesOf (xs.take i) ++ torn ∧
      (torn ≠ [] → ∃ n, 1 ≤ n ∧
        Packet.read mode max torn = (.err (.InsufficientBytes n), torn)) := by
  obtain ⟨rfl, hx⟩ := log_inv h
  obtain ⟨os, torn, hd⟩ := drains_total mode max ((bytesOf xs).take k)
  obtain ⟨h1, h2, h3, h4, h5⟩ := log_facts hx hk hd
  refine ⟨os.length, torn, h1, fun os' r => ⟨fun hd' => ?_, ?_⟩, h4, h3, h5⟩
  · obtain ⟨rfl, rfl⟩ := drains_det hd hd'
    exact ⟨h2, rfl⟩
  · rintro ⟨rfl, rfl⟩
    rw [← h2]; exact hd

/-- Without cutting off what is left, the next packet is lost: a PINGREQ appended behind an incomplete
PUBLISH becomes part of it. -/
theorem C81_careless :
    Log .utf8 none [(.Publish {
        dup := false, qos := .AtMostOnce, retain := false, topic := [0x61], pkid := 0, payload := []
        properties := none }, [0x30, 4, 0, 1, 0x61, 0])] [0x30, 4, 0, 1, 0x61, 0] ∧
    Drains .utf8 none ([0x30, 4, 0, 1, 0x61, 0].take 4) [] [0x30, 4, 0, 1] ∧
    Drains .utf8 none ([0x30, 4, 0, 1] ++ [0xC0, 0]) [.err .TopicNotUtf8] [] := by
  refine ⟨.append (xs := []) (b := []) (n := 6) .start (by decide +kernel) (by decide +kernel),
    .stop (by decide +kernel), ?_⟩
  exact .step (b1 := []) (by decide +kernel) (by simp) (.stop (by decide +kernel))

/-- Two packets are appended, the last byte is lost in a crash, and one packet is appended. -/
example : Log .utf8 none [(.PingReq, [0xC0, 0]), (.PingReq, [0xC0, 0])] [0xC0, 0, 0xC0, 0] := by
  have h1 : Log .utf8 none [(.PingReq, [0xC0, 0])] [0xC0, 0] :=
    .append (xs := []) (b := []) (n := 2) .start (by decide +kernel) (by decide +kernel)
  have h2 : Log .utf8 none [(.PingReq, [0xC0, 0]), (.PingResp, [0xD0, 0])] [0xC0, 0, 0xD0, 0] :=
    .append (n := 2) h1 (by decide +kernel) (by decide +kernel)
  have h3 : Drains .utf8 none [0xC0, 0, 0xD0] [.ok .PingReq] [0xD0] :=
    .step (b1 := [0xD0]) (by decide +kernel) (by simp) (.stop (by decide +kernel))
  exact .append (n := 2) (.crash (k := 3) h2 (by simp) h3) (by decide +kernel) (by decide +kernel)

end Props
