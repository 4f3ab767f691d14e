import Verif.Spec.Retry
import Verif.Props.Alias
import Verif.Props.Log
import Verif.Props.New
/-
C84: QoS 1 messages and connections that break.
-/
namespace Props

open Mqtt Spec

theorem writeAll_total {ps : List Packet} (h : ∀ p ∈ ps, Encodable p) :
    ∀ b, ∃ b', WriteAll ps b b' := by
  induction ps with
  | nil => exact fun b => ⟨b, .nil b⟩
  | cons p ps ih =>
    intro b
    obtain ⟨n, b1, h1⟩ := (C20_ok_iff p b).2 (h p (by simp))
    obtain ⟨b2, h2⟩ := ih (fun q hq => h q (by simp [hq])) b1
    exact ⟨b2, .cons h1 h2⟩

theorem writeAll_bytes {xs : List (Packet × Bytes)} (hx : ∀ x ∈ xs, ∃ n, x.1.write [] = (.ok n, x.2))
    (hc : ∀ x ∈ xs, ¬ IsConnect x.1) {b : Bytes} : WriteAll (xs.map (·.1)) b (b ++ bytesOf xs) := by
  induction xs generalizing b with
  | nil => simpa [bytesOf] using WriteAll.nil b
  | cons x xs ih =>
    obtain ⟨n, hn⟩ := hx x (by simp)
    obtain ⟨o, w, he⟩ := C11_appends_partial x.1 (hc x (by simp))
    have h1 := he []
    rw [hn, Prod.mk.injEq] at h1
    obtain ⟨rfl, h1⟩ := h1
    rw [List.nil_append] at h1
    subst h1
    have := ih (fun y hy => hx y (by simp [hy])) (fun y hy => hc y (by simp [hy])) (b := b ++ x.2)
    rw [List.append_assoc] at this
    exact .cons (he b) this

/-- C84, one connection: of packets that each survive alone, wherever the connection breaks, the receiver
gets exactly those whose bytes have all arrived, from the first on; and for what is left it asks for more
bytes. -/
theorem C84_broken (mode : StrMode) (max : Option Nat) (ps : List Packet) (b : Bytes)
    (hw : WriteAll ps [] b) (hc : ∀ p ∈ ps, ¬ IsConnect p) (hs : ∀ p ∈ ps, SurvivesAlone mode max p)
    (k : Nat) (hk : k ≤ b.length) (os : List (Out Packet)) (torn : Bytes)
    (hd : Drains mode max (b.take k) os torn) :
    os.length ≤ ps.length ∧ os = (ps.take os.length).map (fun p => .ok (norm p)) ∧
    (∃ c, WriteAll (ps.take os.length) [] c ∧ b.take k = c ++ torn) ∧
    (∀ i, i ≤ ps.length → ∀ c, WriteAll (ps.take i) [] c → (c.length ≤ k ↔ i ≤ os.length)) ∧
    (torn ≠ [] → ∃ n, 1 ≤ n ∧ Packet.read mode max torn = (.err (.InsufficientBytes n), torn)) := by
  obtain ⟨ws, rfl, rfl, h3⟩ := writeAll_parts hw hc
  rw [List.nil_append] at hk hd
  have hx : ∀ x ∈ ws, (∃ n, x.1.write [] = (.ok n, x.2)) ∧
      Packet.read mode max x.2 = (.ok (norm x.1), []) := by
    intro x hx
    obtain ⟨n, w, h1, h2⟩ := hs x.1 (List.mem_map.2 ⟨x, hx, rfl⟩)
    obtain ⟨m, h4⟩ := h3 x hx
    rw [h1, Prod.mk.injEq] at h4
    obtain ⟨-, rfl⟩ := h4
    exact ⟨⟨n, h1⟩, h2⟩
  obtain ⟨h4, h5, h6, h7, h8⟩ := log_facts hx hk hd
  refine ⟨by simpa using h4, ?_, ⟨bytesOf (ws.take os.length), ?_, h6⟩, fun i hi c hc' => ?_, h8⟩
  · rw [← List.map_take, List.map_map]; exact h5
  · rw [← List.map_take]
    exact writeAll_bytes (b := []) (fun x hx' => (hx x (List.mem_of_mem_take hx')).1)
      (fun x hx' => hc _ (List.mem_map.2 ⟨x, List.mem_of_mem_take hx', rfl⟩))
  · rw [List.length_map] at hi
    rw [← h7 i hi]
    rw [← List.map_take] at hc'
    rw [writeAll_unique hc' (writeAll_bytes (fun x hx' => (hx x (List.mem_of_mem_take hx')).1)
      (fun x hx' => hc _ (List.mem_map.2 ⟨x, List.mem_of_mem_take hx', rfl⟩))), List.nil_append]

theorem writeAll_four {ps : List Packet} {b b' : Bytes} (h : WriteAll ps b b')
    (h4 : ∀ p ∈ ps, ∀ b, ∃ w, p.write b = (.ok 4, b ++ w) ∧ w.length = 4) :
    b'.length = b.length + 4 * ps.length := by
  induction h with
  | nil => simp
  | cons h _ ih =>
    obtain ⟨w, hw, hl⟩ := h4 _ (List.mem_cons_self ..) _
    rw [hw, Prod.mk.injEq] at h
    obtain ⟨-, rfl⟩ := h
    rw [ih fun p hp => h4 p (List.mem_cons_of_mem _ hp), List.length_append, List.length_cons, hl]
    omega

/-- Of packets of 4 bytes each, as many arrive as 4 goes into the number of bytes. -/
theorem broken_four {mode : StrMode} {max : Option Nat} {ps : List Packet} {b : Bytes}
    (hw : WriteAll ps [] b) (hc : ∀ p ∈ ps, ¬ IsConnect p) (hs : ∀ p ∈ ps, SurvivesAlone mode max p)
    (h4 : ∀ p ∈ ps, ∀ b, ∃ w, p.write b = (.ok 4, b ++ w) ∧ w.length = 4)
    {k : Nat} (hk : k ≤ b.length) {os : List (Out Packet)} {torn : Bytes}
    (hd : Drains mode max (b.take k) os torn) : os.length = min ps.length (k / 4) := by
  obtain ⟨h1, -, -, h2, -⟩ := C84_broken mode max ps b hw hc hs k hk os torn hd
  have h3 : ∀ i, i ≤ ps.length → (4 * i ≤ k ↔ i ≤ os.length) := by
    intro i hi
    obtain ⟨c, hc'⟩ := writeAll_total (ps := ps.take i)
      (fun p hp => writeAll_encodable hw p (List.mem_of_mem_take hp)) []
    rw [← h2 i hi c hc', writeAll_four hc' fun p hp => h4 p (List.mem_of_mem_take hp),
      List.length_take, Nat.min_eq_left hi]
    simp
  have h5 := (h3 os.length h1).2 (Nat.le_refl _)
  have h6 := h3 (min ps.length (k / 4)) (Nat.min_le_left _ _)
  have h7 := writeAll_four hw h4
  simp only [List.length_nil] at h7
  omega

theorem resend_survives {mode : StrMode} {max : Option Nat} {m : Publish} {d : Bool}
    (h : SurvivesAlone mode max (.Publish m)) :
    SurvivesAlone mode max (.Publish { m with dup := d }) := by
  obtain ⟨n, w, hw, hr⟩ := h
  obtain ⟨b1, v, bd, e1, e2, e3, e4, e5⟩ := read_ok_iff.1 hr
  have h0 : SurvivesAlone mode none (.Publish m) :=
    ⟨n, w, hw, read_ok_iff.2 ⟨b1, v, bd, e1, e2, by simp [OverLimit], e4, e5⟩⟩
  obtain ⟨h1, h2, h3, h4⟩ := (C12_survives_iff mode _).1 h0
  obtain ⟨-, -, rfl⟩ := write_ok_inv hw trivial (fun h => h.elim)
  obtain ⟨k, hk, hm⟩ := survivor_frame hr
  have hk' : RemLen ([] ++ encode (.Publish m)) (body (.Publish m)).length :=
    ⟨byte1 (.Publish m), _, body (.Publish m), rfl, varint_rep h1.2.2.1, rfl⟩
  obtain ⟨-, rfl, -⟩ := remLen_unique hk hk' (r := []) (r' := []) rfl
  have h5 : Encodable (.Publish { m with dup := d }) := h1
  obtain ⟨n', w', hw'⟩ := (C20_ok_iff _ []).2 h5
  obtain ⟨w', rfl, hr'⟩ := write_read hw' (fun h => h.elim) (mode := mode) (max := max) h2 h3 id hm
  exact ⟨_, _, hw', by simpa using hr' []⟩

theorem ack_survives (mode : StrMode) (max : Option Nat) (hm : Admits max 2) (p : Publish) :
    SurvivesAlone mode max (ackOf p) := by
  have hw := (C47_acks p.pkid []).1
  obtain ⟨w', he, hr'⟩ := write_read hw (fun h => h.elim) (mode := mode) (max := max)
    ⟨by simp [texts], by simp [props, optList, PubAck.new]⟩ trivial id hm
  rw [he] at hw
  refine ⟨_, _, hw, ?_⟩
  have := hr' []
  rw [List.append_nil] at this
  exact this

theorem norm_resend {m : Publish} (hq : m.qos = .AtLeastOnce) (d : Bool) :
    norm (.Publish { m with dup := d }) = .Publish (arrival m d) := by
  simp [norm, arrival, hq]

theorem filterMap_map_some {α β γ : Type _} {f : β → Option γ} {g : α → β} {h : α → γ} {l : List α}
    (hl : ∀ x ∈ l, f (g x) = some (h x)) : (l.map g).filterMap f = l.map h := by
  induction l with
  | nil => rfl
  | cons a l ih =>
    rw [List.map_cons, List.filterMap_cons, hl a (by simp), List.map_cons,
      ih fun x hx => hl x (by simp [hx])]

theorem acks_four {l : List Publish} :
    ∀ p ∈ l.map ackOf, ∀ b, ∃ w, p.write b = (.ok 4, b ++ w) ∧ w.length = 4 := by
  intro p hp b
  obtain ⟨q, hq, rfl⟩ := List.mem_map.1 hp
  exact ⟨[0x40, 2] ++ u16 q.pkid, by rw [← List.append_assoc]; exact (C47_acks q.pkid b).1, rfl⟩

/-- What one connection does. -/
theorem connection_facts {mode : StrMode} {max max' : Option Nat} (hm' : Admits max' 2)
    {pending : List Publish} (hp : ∀ p ∈ pending, p.qos = .AtLeastOnce ∧
      SurvivesAlone mode max (.Publish p))
    {dup : Publish → Bool} {b a torn torn' : Bytes} {os os' : List (Out Packet)} {k j : Nat}
    (h1 : WriteAll (pending.map fun p => .Publish { p with dup := dup p }) [] b) (h2 : k ≤ b.length)
    (h3 : Drains mode max (b.take k) os torn)
    (h4 : WriteAll ((os.filterMap messageIn).map ackOf) [] a) (h5 : j ≤ a.length)
    (h6 : Drains mode max' (a.take j) os' torn') :
    ∃ i, i ≤ pending.length ∧
      (∀ n, n ≤ pending.length → ∀ c,
        WriteAll ((pending.take n).map fun p => .Publish { p with dup := dup p }) [] c →
          (c.length ≤ k ↔ n ≤ i)) ∧
      os.filterMap messageIn = (pending.take i).map (fun p => arrival p (dup p)) ∧
      os'.filterMap ackedIn = (pending.take (min i (j / 4))).map (·.pkid) ∧
      os' = (pending.take (min i (j / 4))).map (fun p => .ok (ackOf p)) := by
  obtain ⟨e1, e2, -, e3, -⟩ := C84_broken mode max _ b h1 (by
    intro p hp'
    obtain ⟨q, hq, rfl⟩ := List.mem_map.1 hp'
    exact id) (by
    intro p hp'
    obtain ⟨q, hq, rfl⟩ := List.mem_map.1 hp'
    exact resend_survives (hp q hq).2) k h2 os torn h3
  have hc : ∀ p ∈ (os.filterMap messageIn).map ackOf, ¬ IsConnect p := by
    intro p hp'
    obtain ⟨q, hq, rfl⟩ := List.mem_map.1 hp'
    exact id
  have hs : ∀ p ∈ (os.filterMap messageIn).map ackOf, SurvivesAlone mode max' p := by
    intro p hp'
    obtain ⟨q, hq, rfl⟩ := List.mem_map.1 hp'
    exact ack_survives mode max' hm' q
  obtain ⟨f1, f2, -⟩ := C84_broken mode max' _ a h4 hc hs j h5 os' torn' h6
  have f3 := broken_four h4 hc hs acks_four h5 h6
  have g1 : os.filterMap messageIn = (pending.take os.length).map (fun p => arrival p (dup p)) := by
    conv => lhs; rw [e2, ← List.map_take, List.map_map]
    refine filterMap_map_some fun x hx => ?_
    simp only [Function.comp, norm_resend (hp x (List.mem_of_mem_take hx)).1, messageIn]
  rw [List.length_map] at e1 e3
  rw [g1] at f1 f2 f3
  rw [List.length_map, List.length_map, List.length_take, Nat.min_eq_left e1] at f1 f3
  refine ⟨os.length, e1, ?_, g1, ?_⟩
  · intro n hn c hc'
    exact e3 n hn c (by rw [← List.map_take]; exact hc')
  · have g2 : os' = (pending.take (min os.length (j / 4))).map (fun p => .ok (ackOf p)) := by
      rw [← f3]
      conv => lhs; rw [f2, ← List.map_take, ← List.map_take, List.take_take, Nat.min_eq_left f1,
        List.map_map, List.map_map]
      rfl
    refine ⟨?_, g2⟩
    rw [g2]
    exact filterMap_map_some fun x hx => rfl

theorem filter_acked {l : List Publish} (hd : l.Pairwise fun p q => p.pkid ≠ q.pkid) (n : Nat) :
    (l.filter fun p => !((l.take n).map (·.pkid)).contains p.pkid) = l.drop n := by
  have h := List.pairwise_append.1 (show ((l.take n) ++ (l.drop n)).Pairwise _ by
    rw [List.take_append_drop]; exact hd)
  conv => lhs; rw [← List.take_append_drop n l]
  rw [List.filter_append, List.filter_eq_nil_iff.2, List.filter_eq_self.2, List.nil_append]
  · intro q hq
    simp only [Bool.not_eq_true', List.contains_eq_mem, decide_eq_false_iff_not, List.mem_map, not_exists, not_and]
    intro p hp
    rw [List.take_append_drop] at hp
    exact h.2.2 p hp q hq
  · intro q hq
    simp only [Bool.not_eq_true', List.contains_eq_mem, decide_eq_false_iff_not, Decidable.not_not,
      List.mem_map]
    exact ⟨q, by rw [List.take_append_drop]; exact hq, rfl⟩

/-- What holds at all times. -/
theorem retries_facts {mode : StrMode} {max max' : Option Nat} (hm' : Admits max' 2)
    {all : List Publish} {s : Retry} (h : Retries mode max max' all s) :
    (s.pending.Pairwise fun p q => p.pkid ≠ q.pkid) ∧
    (∀ p ∈ s.pending, p.qos = .AtLeastOnce ∧ SurvivesAlone mode max (.Publish p)) ∧
    (∃ done : List (Publish × Bool), all = done.map (·.1) ++ s.pending ∧
      (done.map fun x => arrival x.1 x.2).Sublist s.received) ∧
    ∀ q ∈ s.received, ∃ m ∈ all, ∃ d, q = arrival m d := by
  induction h with
  | start => exact ⟨.nil, by simp, ⟨[], rfl, .slnil⟩, by simp⟩
  | @submit all s m _ hq hd hs ih =>
    obtain ⟨h1, h2, ⟨done, h3, h4⟩, h6⟩ := ih
    refine ⟨?_, ?_, ⟨done, ?_, h4⟩, ?_⟩
    · exact List.pairwise_append.2 ⟨h1, List.pairwise_singleton _ _, by simpa using hd⟩
    · intro p hp
      rcases List.mem_append.1 hp with hp | hp
      · exact h2 p hp
      · obtain rfl := List.mem_singleton.1 hp
        exact ⟨hq, hs⟩
    · rw [h3, List.append_assoc]
    · intro q hq
      obtain ⟨m, hm, d, e⟩ := h6 q hq
      exact ⟨m, List.mem_append_left _ hm, d, e⟩
  | @connection all s dup b a torn torn' os os' k j _ g1 g2 g3 g4 g5 g6 ih =>
    obtain ⟨h1, h2, ⟨done, h3, h4⟩, h6⟩ := ih
    obtain ⟨i, e2, -, e3, e4, -⟩ := connection_facts hm' h2 g1 g2 g3 g4 g5 g6
    have e1 : min i (j / 4) ≤ i := Nat.min_le_left _ _
    generalize min i (j / 4) = l at *
    simp only [e3, e4, filter_acked h1]
    refine ⟨h1.sublist (List.drop_sublist _ _), fun p hp => h2 p (List.mem_of_mem_drop hp),
      ⟨done ++ (s.pending.take l).map (fun p => (p, dup p)), ?_, ?_⟩, ?_⟩
    · rw [h3, List.map_append, List.map_map,
        show ((fun x : Publish × Bool => x.1) ∘ fun p => (p, dup p)) = id from rfl, List.map_id,
        List.append_assoc, List.take_append_drop]
    · rw [List.map_append, List.map_map]
      refine h4.append (List.Sublist.map _ ?_)
      rw [← Nat.min_eq_left e1, ← List.take_take]
      exact List.take_sublist _ _
    · intro q hq
      rcases List.mem_append.1 hq with hq | hq
      · exact h6 q hq
      · obtain ⟨p, hp, rfl⟩ := List.mem_map.1 hq
        exact ⟨p, by rw [h3]; exact List.mem_append_right _ (List.mem_of_mem_take hp), _, rfl⟩

/-- C84, what one connection does, exactly: the receiver reads the pending messages whose bytes have all
arrived; and of these, as many are done as whole PUBACKs, of 4 bytes each, come back. -/
theorem C84_connection (mode : StrMode) (max max' : Option Nat) (hm' : Admits max' 2)
    (all : List Publish) (s : Retry) (h : Retries mode max max' all s)
    (dup : Publish → Bool) (b a torn torn' : Bytes) (os os' : List (Out Packet)) (k j : Nat)
    (h1 : WriteAll (s.pending.map fun p => .Publish { p with dup := dup p }) [] b) (h2 : k ≤ b.length)
    (h3 : Drains mode max (b.take k) os torn)
    (h4 : WriteAll ((os.filterMap messageIn).map ackOf) [] a) (h5 : j ≤ a.length)
    (h6 : Drains mode max' (a.take j) os' torn') :
    ∃ i, i ≤ s.pending.length ∧
      (∀ n, n ≤ s.pending.length → ∀ c,
        WriteAll ((s.pending.take n).map fun p => .Publish { p with dup := dup p }) [] c →
          (c.length ≤ k ↔ n ≤ i)) ∧
      os.filterMap messageIn = (s.pending.take i).map (fun p => arrival p (dup p)) ∧
      (s.pending.filter fun p => !(os'.filterMap ackedIn).contains p.pkid) =
        s.pending.drop (min i (j / 4)) := by
  obtain ⟨g1, g2, -, -⟩ := retries_facts hm' h
  obtain ⟨i, e1, e2, e3, e4, -⟩ := connection_facts hm' g2 h1 h2 h3 h4 h5 h6
  exact ⟨i, e1, e2, e3, by rw [e4, filter_acked g1]⟩

/-- C84: no message is lost, however the connections break. The messages handed over are those done, then
those pending; and the receiver has read those done, in this order, up to the DUP flag and to empty
properties; other copies may lie in between. -/
theorem C84_safe (mode : StrMode) (max max' : Option Nat) (hm' : Admits max' 2)
    (all : List Publish) (s : Retry) (h : Retries mode max max' all s) :
    ∃ done : List (Publish × Bool), all = done.map (·.1) ++ s.pending ∧
      (done.map fun x => arrival x.1 x.2).Sublist s.received :=
  (retries_facts hm' h).2.2.1

/-- C84: the receiver reads nothing else: each message read is a copy of one handed over. -/
theorem C84_only (mode : StrMode) (max max' : Option Nat) (hm' : Admits max' 2)
    (all : List Publish) (s : Retry) (h : Retries mode max max' all s) :
    ∀ q ∈ s.received, ∃ m ∈ all, ∃ d, q = arrival m d :=
  (retries_facts hm' h).2.2.2

/-- C84: one connection that does not break is always possible, and leaves nothing pending: the receiver
then has read every message, in order. -/
theorem C84_done (mode : StrMode) (max max' : Option Nat) (hm' : Admits max' 2)
    (all : List Publish) (s : Retry) (h : Retries mode max max' all s) :
    ∃ s', Retries mode max max' all s' ∧ s'.pending = [] ∧ s.received <+: s'.received ∧
      ∃ l : List (Publish × Bool), l.map (·.1) = all ∧
        (l.map fun x => arrival x.1 x.2).Sublist s'.received := by
  obtain ⟨h1, h2, -, -⟩ := retries_facts hm' h
  obtain ⟨b, hb⟩ := writeAll_total (ps := s.pending.map fun p => .Publish { p with dup := true }) (by
    intro p hp
    obtain ⟨q, hq, rfl⟩ := List.mem_map.1 hp
    obtain ⟨n, w, hw, -⟩ := resend_survives (d := true) (h2 q hq).2
    exact encodable_of_ok hw) []
  obtain ⟨os, torn, hos⟩ := drains_total mode max (b.take b.length)
  obtain ⟨a, ha⟩ := writeAll_total (ps := (os.filterMap messageIn).map ackOf) (by
    intro p hp
    obtain ⟨q, hq, rfl⟩ := List.mem_map.1 hp
    exact encodable_of_ok (C47_acks q.pkid []).1) []
  obtain ⟨os', torn', hos'⟩ := drains_total mode max' (a.take a.length)
  have hc := Retries.connection (dup := fun _ => true) h hb (Nat.le_refl _) hos ha (Nat.le_refl _) hos'
  obtain ⟨i, e1, e2, e3, e4, -⟩ :=
    connection_facts (dup := fun _ => true) hm' h2 hb (Nat.le_refl _) hos ha (Nat.le_refl _) hos'
  have hi : i = s.pending.length := by
    have := (e2 s.pending.length (Nat.le_refl _) b (by rw [List.take_length]; exact hb)).1 (Nat.le_refl _)
    omega
  have ha4 : a.length = 4 * i := by
    rw [writeAll_four ha acks_four, List.length_map, e3, List.length_map, List.length_take, hi]
    simp
  have hnil : (s.pending.filter fun p => !(os'.filterMap ackedIn).contains p.pkid) = [] := by
    rw [e4, filter_acked h1, ha4, show min i (4 * i / 4) = s.pending.length by omega, List.drop_length]
  refine ⟨_, hc, hnil, List.prefix_append _ _, ?_⟩
  obtain ⟨done, h3, h4⟩ := C84_safe mode max max' hm' all _ hc
  rw [hnil, List.append_nil] at h3
  exact ⟨done, h3.symm, h4⟩

/-- The hypotheses are met: a message whose PUBLISH is cut on the first connection and whose PUBACK is cut
on the second. The receiver reads it twice. -/
example (m : Publish) (e : m = {
      dup := false, qos := .AtLeastOnce, retain := false, topic := [97], pkid := 7, payload := [1]
      properties := none }) :
    Retries .utf8 none (some 2) [m] {
      pending := [], received := [{ m with dup := true }, { m with dup := true }] } := by
  subst e
  have h0 := Retries.submit (mode := .utf8) (toReceiver := none) (toSender := some 2) (all := [])
    (m := { dup := false, qos := .AtLeastOnce, retain := false, topic := [97], pkid := 7, payload := [1]
            properties := none })
    .start rfl (by simp) ⟨9, [0x32, 7, 0, 1, 97, 0, 7, 0, 1], by decide +kernel, by decide +kernel⟩
  have h1 := Retries.connection (dup := fun _ => false) (b := [0x32, 7, 0, 1, 97, 0, 7, 0, 1]) (k := 8)
    (os := []) (torn := [0x32, 7, 0, 1, 97, 0, 7, 0]) (a := []) (j := 0) (os' := []) (torn' := []) h0
    (.cons (n := 9) (b1 := [0x32, 7, 0, 1, 97, 0, 7, 0, 1]) (by decide +kernel) (.nil _)) (by simp)
    (.stop (by decide +kernel)) (.nil _) (by simp) (.stop (by decide +kernel))
  have h2 := Retries.connection (dup := fun _ => true) (b := [0x3A, 7, 0, 1, 97, 0, 7, 0, 1]) (k := 9)
    (os := [.ok (.Publish { dup := true, qos := .AtLeastOnce, retain := false, topic := [97], pkid := 7,
                            payload := [1], properties := none })]) (torn := [])
    (a := [0x40, 2, 0, 7]) (j := 3) (os' := []) (torn' := [0x40, 2, 0]) h1
    (.cons (n := 9) (b1 := [0x3A, 7, 0, 1, 97, 0, 7, 0, 1]) (by decide +kernel) (.nil _)) (by simp)
    (.step (b1 := []) (by decide +kernel) (by simp) (.stop (by decide +kernel)))
    (.cons (n := 4) (b1 := [0x40, 2, 0, 7]) (by decide +kernel) (.nil _)) (by simp)
    (.stop (by decide +kernel))
  have h3 := Retries.connection (dup := fun _ => true) (b := [0x3A, 7, 0, 1, 97, 0, 7, 0, 1]) (k := 9)
    (os := [.ok (.Publish { dup := true, qos := .AtLeastOnce, retain := false, topic := [97], pkid := 7,
                            payload := [1], properties := none })]) (torn := [])
    (a := [0x40, 2, 0, 7]) (j := 4)
    (os' := [.ok (.PubAck { pkid := 7, reason := .Success, properties := none })]) (torn' := []) h2
    (.cons (n := 9) (b1 := [0x3A, 7, 0, 1, 97, 0, 7, 0, 1]) (by decide +kernel) (.nil _)) (by simp)
    (.step (b1 := []) (by decide +kernel) (by simp) (.stop (by decide +kernel)))
    (.cons (n := 4) (b1 := [0x40, 2, 0, 7]) (by decide +kernel) (.nil _)) (by simp)
    (.step (b1 := []) (by decide +kernel) (by simp) (.stop (by decide +kernel)))
  exact h3

end Props
