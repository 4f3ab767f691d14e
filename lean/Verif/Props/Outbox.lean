import Verif.Spec.Outbox
import Verif.Props.Retry
/-
C86: QoS 1 messages from a sender that crashes.
-/
namespace Props

open Mqtt Spec

theorem outbox_writeAll_append {xs ys : List Packet} {b b1 b2 : Bytes} (h1 : WriteAll xs b b1)
    (h2 : WriteAll ys b1 b2) : WriteAll (xs ++ ys) b b2 := by
  induction h1 with
  | nil => exact h2
  | cons h _ ih => exact .cons h (ih h2)

theorem replay_append (pending : List Publish) (os os' : List (Out Packet)) :
    replay pending (os ++ os') = replay (replay pending os) os' := by
  induction os generalizing pending with
  | nil => rfl
  | cons o os ih =>
    cases o with
    | ok p => cases p <;> simp only [List.cons_append, replay, ih]
    | err e => simp only [List.cons_append, replay, ih]
    | panic => simp only [List.cons_append, replay, ih]
    | diverge => simp only [List.cons_append, replay, ih]

theorem replay_acks {pending : List Publish} (h : pending.Pairwise fun p q => p.pkid ≠ q.pkid) (n : Nat) :
    replay pending ((pending.take n).map fun p => .ok (ackOf p)) = pending.drop n := by
  induction n generalizing pending with
  | zero => rfl
  | succ n ih =>
    cases pending with
    | nil => rfl
    | cons p l =>
      obtain ⟨h1, h2⟩ := List.pairwise_cons.1 h
      simp only [List.take_succ_cons, List.map_cons, replay, ackOf, List.drop_succ_cons]
      rw [List.filter_cons_of_neg (by simp), List.filter_eq_self.2 (by
        intro q hq; simpa using Ne.symm (h1 q hq))]
      exact ih h2

/-- What the sender writes to its file. -/
def Entry (mode : StrMode) (max : Option Nat) (x : Packet) : Prop :=
  (∃ m, x = .Publish m ∧ m.qos = .AtLeastOnce ∧ SurvivesAlone mode max x ∧ norm x = x) ∨
    ∃ p, x = ackOf p

theorem entry_facts {mode : StrMode} {max : Option Nat} {x : Packet} (h : Entry mode max x) :
    ¬ IsConnect x ∧ SurvivesAlone mode none x ∧ norm x = x := by
  rcases h with ⟨m, rfl, -, ⟨n, w, hw, hr⟩, hn⟩ | ⟨p, rfl⟩
  · refine ⟨id, ⟨n, w, hw, ?_⟩, hn⟩
    obtain ⟨b1, v, bd, e1, e2, e3, e4, e5⟩ := read_ok_iff.1 hr
    exact read_ok_iff.2 ⟨b1, v, bd, e1, e2, by simp [OverLimit], e4, e5⟩
  · exact ⟨id, ack_survives mode none (by simp [Admits]) p, rfl⟩

/-- What is read from the file, or from its beginning. -/
theorem outbox_reads {mode : StrMode} {max : Option Nat} {xs : List Packet} {file : Bytes}
    (hw : WriteAll xs [] file) (hx : ∀ x ∈ xs, Entry mode max x) {k : Nat} (hk : k ≤ file.length)
    {os : List (Out Packet)} {torn : Bytes} (hd : Drains mode none (file.take k) os torn) :
    ∃ q, q ≤ xs.length ∧ os = (xs.take q).map .ok ∧
      WriteAll (xs.take q) [] (file.take (k - torn.length)) ∧ torn.length ≤ k ∧
      ∀ i, i ≤ xs.length → ∀ c, WriteAll (xs.take i) [] c → (c.length ≤ k ↔ i ≤ q) := by
  obtain ⟨h1, h2, ⟨c, h3, h4⟩, h5, -⟩ := C84_broken mode none xs file hw
    (fun x h => (entry_facts (hx x h)).1) (fun x h => (entry_facts (hx x h)).2.1) k hk os torn hd
  have h6 := congrArg List.length h4
  rw [List.length_take, Nat.min_eq_left hk, List.length_append] at h6
  refine ⟨os.length, h1, ?_, ?_, by omega, h5⟩
  · conv => lhs; rw [h2]
    exact List.map_congr_left fun x h => by rw [(entry_facts (hx x (List.mem_of_mem_take h))).2.2]
  · rw [show k - torn.length = c.length by omega]
    have : file.take c.length = c := by
      have := congrArg (List.take c.length) h4
      rwa [List.take_take, Nat.min_eq_left (by omega), List.take_left'] at this
      rfl
    rw [this]; exact h3

theorem outbox_reads_all {mode : StrMode} {max : Option Nat} {xs : List Packet} {file : Bytes}
    (hw : WriteAll xs [] file) (hx : ∀ x ∈ xs, Entry mode max x)
    {os : List (Out Packet)} {torn : Bytes} (hd : Drains mode none file os torn) :
    os = xs.map .ok ∧ torn = [] := by
  obtain ⟨q, h1, h2, h3, h4, h5⟩ := outbox_reads hw hx (Nat.le_refl _)
    (by rw [List.take_length]; exact hd)
  have h6 := (h5 xs.length (Nat.le_refl _) file (by rw [List.take_length]; exact hw)).1 (Nat.le_refl _)
  have h7 : q = xs.length := by omega
  subst h7
  rw [List.take_length] at h2 h3
  refine ⟨h2, ?_⟩
  have h8 := congrArg List.length (writeAll_unique hw h3)
  rw [List.length_take] at h8
  exact List.length_eq_zero_iff.1 (by omega)

/-- What holds at all times. -/
structure OutboxInv (mode : StrMode) (max : Option Nat) (safe : List Publish) (s : Outbox)
    (xs : List Packet) (n : Nat) : Prop where
  written : WriteAll xs [] s.file
  entries : ∀ x ∈ xs, Entry mode max x
  le : n ≤ xs.length
  synced : ∃ c, WriteAll (xs.take n) [] c ∧ c.length = s.synced
  safe : ∀ m ∈ safe, .Publish m ∈ xs.take n ∨ ∃ d, arrival m d ∈ s.received
  kept : ∀ i, i ≤ xs.length → ∀ m, .Publish m ∈ xs.take i →
    m ∈ replay [] ((xs.take i).map .ok) ∨ ∃ d, arrival m d ∈ s.received
  ids : ∀ i, i ≤ xs.length →
    (replay [] ((xs.take i).map .ok)).Pairwise fun p q => p.pkid ≠ q.pkid
  submitted : ∀ m, .Publish m ∈ xs → m ∈ s.submitted
  only : ∀ q ∈ s.received, ∃ m ∈ s.submitted, ∃ d, q = arrival m d

theorem replay_mem {pending : List Publish} {xs : List Packet} {m : Publish}
    (h : m ∈ replay pending (xs.map .ok)) : m ∈ pending ∨ .Publish m ∈ xs := by
  induction xs generalizing pending with
  | nil => exact .inl h
  | cons x xs ih =>
    have h0 : ∀ {q}, m ∈ replay q (xs.map .ok) → (m ∈ q → m ∈ pending ∨ .Publish m ∈ x :: xs) →
        m ∈ pending ∨ .Publish m ∈ x :: xs := fun h1 h2 =>
      (ih h1).elim h2 fun h3 => .inr (List.mem_cons_of_mem _ h3)
    cases x with
    | Publish p =>
      refine h0 (by simpa only [List.map_cons, replay] using h) fun h1 => ?_
      rcases List.mem_append.1 h1 with h1 | h1
      · exact .inl h1
      · obtain rfl := List.mem_singleton.1 h1
        exact .inr (List.mem_cons_self ..)
    | PubAck a =>
      exact h0 (by simpa only [List.map_cons, replay] using h) fun h1 => .inl ((List.mem_filter.1 h1).1)
    | _ => exact h0 (by simpa only [List.map_cons, replay] using h) .inl

theorem take_append_cases {α : Type} (xs ys : List α) (i : Nat) :
    (i ≤ xs.length ∧ (xs ++ ys).take i = xs.take i) ∨ (xs ++ ys).take i = xs ++ ys.take (i - xs.length) := by
  rcases Nat.lt_or_ge xs.length i with h | h
  · right; rw [List.take_append, List.take_of_length_le (by omega)]
  · left; refine ⟨h, List.take_append_of_le_length h⟩

theorem filterMap_ack (l : List Publish) :
    (l.map fun p => Out.ok (ackOf p)).filterMap ackIn = l.map ackOf := by
  exact filterMap_map_some fun x hx => rfl

theorem outbox_submit {mode : StrMode} {max : Option Nat} {safe : List Publish} {s : Outbox}
    {xs : List Packet} {n : Nat} (hi : OutboxInv mode max safe s xs n) {m : Publish} {n1 n2 : Nat}
    {os : List (Out Packet)} {w file : Bytes} (h1 : Drains mode none s.file os [])
    (h2 : ∀ p ∈ replay [] os, p.pkid ≠ m.pkid) (h3 : m.qos = .AtLeastOnce)
    (h4 : norm (.Publish m) = .Publish m) (h5 : (Packet.Publish m).write [] = (.ok n1, w))
    (h6 : Packet.read mode max w = (.ok (.Publish m), []))
    (h7 : (Packet.Publish m).write s.file = (.ok n2, file)) :
    OutboxInv mode max safe { s with file := file, submitted := s.submitted ++ [m] }
      (xs ++ [.Publish m]) n := by
  obtain ⟨rfl, -⟩ := outbox_reads_all hi.written hi.entries h1
  have hl := hi.le
  refine ⟨outbox_writeAll_append hi.written (.cons h7 (.nil _)), ?_, ?_, ?_, ?_, ?_, ?_, ?_, ?_⟩
  · intro x hx
    rcases List.mem_append.1 hx with hx | hx
    · exact hi.entries x hx
    · obtain rfl := List.mem_singleton.1 hx
      exact .inl ⟨m, rfl, h3, ⟨n1, w, h5, by rw [h6, h4]⟩, h4⟩
  · rw [List.length_append]; omega
  · rw [List.take_append_of_le_length hl]; exact hi.synced
  · rw [List.take_append_of_le_length hl]; exact hi.safe
  · intro i _ p hp
    rcases take_append_cases xs [.Publish m] i with ⟨hi', e⟩ | e
    · rw [e] at hp ⊢; exact hi.kept i hi' p hp
    · rw [e] at hp ⊢
      generalize i - xs.length = t at *
      cases t with
      | zero =>
        rw [List.take_zero, List.append_nil] at hp ⊢
        have := hi.kept xs.length (Nat.le_refl _) p
        rw [List.take_length] at this
        exact this hp
      | succ j =>
        rw [List.take_of_length_le (by simp)] at hp ⊢
        rw [List.map_append, replay_append]
        rcases List.mem_append.1 hp with hp | hp
        · have := hi.kept xs.length (Nat.le_refl _) p
          rw [List.take_length] at this
          exact (this hp).imp (fun h => List.mem_append_left _ h) id
        · have := List.mem_singleton.1 hp
          injection this with this
          subst this
          exact .inl (List.mem_append_right _ (by simp))
  · intro i _
    rcases take_append_cases xs [.Publish m] i with ⟨hi', e⟩ | e
    · rw [e]; exact hi.ids i hi'
    · rw [e]
      have h0 := hi.ids xs.length (Nat.le_refl _)
      rw [List.take_length] at h0
      cases i - xs.length with
      | zero => rw [List.take_zero, List.append_nil]; exact h0
      | succ j =>
        rw [List.take_of_length_le (by simp), List.map_append, replay_append]
        exact List.pairwise_append.2 ⟨h0, List.pairwise_singleton _ _, by simpa using h2⟩
  · intro p hp
    rcases List.mem_append.1 hp with hp | hp
    · exact List.mem_append_left _ (hi.submitted p hp)
    · have := List.mem_singleton.1 hp
      injection this with this
      subst this
      exact List.mem_append_right _ (by simp)
  · intro q hq
    obtain ⟨p, hp, d, e⟩ := hi.only q hq
    exact ⟨p, List.mem_append_left _ hp, d, e⟩

theorem mem_messages {xs : List Packet} {m : Publish} (h : m ∈ (xs.map Out.ok).filterMap messageIn) :
    .Publish m ∈ xs := by
  obtain ⟨o, ho, hm⟩ := List.mem_filterMap.1 h
  obtain ⟨x, hx, rfl⟩ := List.mem_map.1 ho
  cases x with
  | Publish p => simp only [messageIn, Option.some.injEq] at hm; rwa [← hm]
  | _ => simp [messageIn] at hm

theorem outbox_sync {mode : StrMode} {max : Option Nat} {safe : List Publish} {s : Outbox}
    {xs : List Packet} {n : Nat} (hi : OutboxInv mode max safe s xs n)
    {os : List (Out Packet)} (h1 : Drains mode none s.file os []) :
    OutboxInv mode max (safe ++ os.filterMap messageIn) { s with synced := s.file.length } xs xs.length := by
  obtain ⟨rfl, -⟩ := outbox_reads_all hi.written hi.entries h1
  refine ⟨hi.written, hi.entries, Nat.le_refl _, ⟨s.file, by rw [List.take_length]; exact hi.written, rfl⟩,
    ?_, hi.kept, hi.ids, hi.submitted, hi.only⟩
  intro m hm
  rw [List.take_length]
  rcases List.mem_append.1 hm with h | h
  · exact (hi.safe m h).imp List.mem_of_mem_take id
  · exact .inl (mem_messages h)

theorem replay_publishes (pending l : List Publish) :
    replay pending ((l.map Packet.Publish).map .ok) = pending ++ l := by
  induction l generalizing pending with
  | nil => simp [replay]
  | cons p l ih => simp only [List.map_cons, replay, ih, List.append_assoc, List.singleton_append]

theorem outbox_compact {mode : StrMode} {max : Option Nat} {safe : List Publish} {s : Outbox}
    {xs : List Packet} {n : Nat} (hi : OutboxInv mode max safe s xs n)
    {os : List (Out Packet)} {file : Bytes} (h1 : Drains mode none s.file os [])
    (h2 : WriteAll ((replay [] os).map .Publish) [] file) :
    OutboxInv mode max (safe ++ os.filterMap messageIn) { s with file := file, synced := file.length }
      ((replay [] os).map .Publish) ((replay [] os).map Packet.Publish).length := by
  obtain ⟨rfl, -⟩ := outbox_reads_all hi.written hi.entries h1
  have g0 := hi.ids xs.length (Nat.le_refl _)
  have g1 := hi.kept xs.length (Nat.le_refl _)
  rw [List.take_length] at g0 g1
  have g2 : ∀ p ∈ replay [] (xs.map .ok), .Publish p ∈ xs := fun p hp =>
    (replay_mem hp).elim (by simp) id
  generalize replay [] (xs.map .ok) = P at *
  refine ⟨h2, ?_, Nat.le_refl _, ⟨file, by rw [List.take_length]; exact h2, rfl⟩, ?_, ?_, ?_, ?_, hi.only⟩
  · intro x hx
    obtain ⟨p, hp, rfl⟩ := List.mem_map.1 hx
    exact hi.entries _ (g2 p hp)
  · intro m hm
    rw [List.take_length]
    have : .Publish m ∈ xs ∨ ∃ d, arrival m d ∈ s.received := by
      rcases List.mem_append.1 hm with h | h
      · exact (hi.safe m h).imp List.mem_of_mem_take id
      · exact .inl (mem_messages h)
    rcases this with h | h
    · exact (g1 m h).imp (fun h => List.mem_map.2 ⟨m, h, rfl⟩) id
    · exact .inr h
  · intro i _ m hm
    rw [← List.map_take] at hm ⊢
    rw [replay_publishes, List.nil_append]
    obtain ⟨p, hp, h⟩ := List.mem_map.1 hm
    injection h with h
    exact .inl (h ▸ hp)
  · intro i _
    rw [← List.map_take, replay_publishes, List.nil_append]
    exact g0.sublist (List.take_sublist _ _)
  · intro m hm
    obtain ⟨p, hp, h⟩ := List.mem_map.1 hm
    injection h with h
    exact hi.submitted m (h ▸ g2 p hp)

theorem outbox_crash {mode : StrMode} {max : Option Nat} {safe : List Publish} {s : Outbox}
    {xs : List Packet} {n : Nat} (hi : OutboxInv mode max safe s xs n)
    {os : List (Out Packet)} {torn : Bytes} {k : Nat} (h1 : s.synced ≤ k) (h2 : k ≤ s.file.length)
    (h3 : Drains mode none (s.file.take k) os torn) :
    ∃ q, OutboxInv mode max safe { s with file := s.file.take (k - torn.length) } (xs.take q) n := by
  obtain ⟨q, e1, -, e2, -, e3⟩ := outbox_reads hi.written hi.entries h2 h3
  obtain ⟨c, g1, g2⟩ := hi.synced
  have hq : n ≤ q := (e3 n hi.le c g1).1 (by omega)
  have ht : ∀ i, i ≤ q → (xs.take q).take i = xs.take i := fun i h => by
    rw [List.take_take, Nat.min_eq_left h]
  have hl : (xs.take q).length = q := by rw [List.length_take]; omega
  refine ⟨q, e2, fun x hx => hi.entries x (List.mem_of_mem_take hx), by omega, ?_, ?_, ?_, ?_, ?_, hi.only⟩
  · rw [ht n hq]; exact ⟨c, g1, g2⟩
  · rw [ht n hq]; exact hi.safe
  · intro i hi' m hm
    rw [ht i (by omega)] at hm ⊢
    exact hi.kept i (by omega) m hm
  · intro i hi'
    rw [ht i (by omega)]
    exact hi.ids i (by omega)
  · exact fun m hm => hi.submitted m (List.mem_of_mem_take hm)

theorem outbox_connection {mode : StrMode} {max max' : Option Nat} (hm' : Admits max' 2)
    {safe : List Publish} {s : Outbox}
    {xs : List Packet} {n : Nat} (hi : OutboxInv mode max safe s xs n)
    {dup : Publish → Bool} {b a torn torn' file : Bytes}
    {os0 os os' : List (Out Packet)} {k j : Nat} (h0 : Drains mode none s.file os0 [])
    (h1 : WriteAll ((replay [] os0).map fun p => .Publish { p with dup := dup p }) [] b)
    (h2 : k ≤ b.length) (h3 : Drains mode max (b.take k) os torn)
    (h4 : WriteAll ((os.filterMap messageIn).map ackOf) [] a) (h5 : j ≤ a.length)
    (h6 : Drains mode max' (a.take j) os' torn') (h7 : WriteAll (os'.filterMap ackIn) s.file file) :
    ∃ i, i ≤ (replay [] os0).length ∧
      (∀ n, n ≤ (replay [] os0).length → ∀ c,
        WriteAll (((replay [] os0).take n).map fun p => .Publish { p with dup := dup p }) [] c →
          (c.length ≤ k ↔ n ≤ i)) ∧
      os.filterMap messageIn = ((replay [] os0).take i).map (fun p => arrival p (dup p)) ∧
      os'.filterMap ackIn = ((replay [] os0).take (min i (j / 4))).map ackOf ∧
      OutboxInv mode max safe { s with file := file, received := s.received ++ os.filterMap messageIn }
        (xs ++ os'.filterMap ackIn) n := by
  obtain ⟨rfl, -⟩ := outbox_reads_all hi.written hi.entries h0
  have g0 := hi.ids xs.length (Nat.le_refl _)
  have g1 := hi.kept xs.length (Nat.le_refl _)
  rw [List.take_length] at g0 g1
  have g2 : ∀ p ∈ replay [] (xs.map .ok), .Publish p ∈ xs := fun p hp =>
    (replay_mem hp).elim (by simp) id
  have hl := hi.le
  generalize hP : replay [] (xs.map .ok) = P at *
  obtain ⟨i, e1, e2, e3, -, e4⟩ := connection_facts hm' (pending := P) (by
    intro p hp
    rcases hi.entries _ (g2 p hp) with ⟨m, hm, h⟩ | ⟨m, hm⟩
    · injection hm with hm
      subst hm
      exact ⟨h.1, h.2.1⟩
    · simp [ackOf] at hm) h1 h2 h3 h4 h5 h6
  have e5 : os'.filterMap ackIn = (P.take (min i (j / 4))).map ackOf := by rw [e4, filterMap_ack]
  refine ⟨i, e1, e2, e3, e5, ?_⟩
  have hr : ∀ t, replay [] (((xs ++ ((P.take (min i (j / 4))).map ackOf).take t)).map .ok) =
      P.drop (min t (min i (j / 4))) := by
    intro t
    rw [List.map_append, replay_append, hP, ← List.map_take, List.map_map, List.take_take,
      show (Out.ok ∘ ackOf) = fun p => Out.ok (ackOf p) from rfl, replay_acks g0]
  rw [e5] at h7 ⊢
  refine ⟨outbox_writeAll_append hi.written h7, ?_, ?_, ?_, ?_, ?_, ?_, ?_, ?_⟩
  · intro x hx
    rcases List.mem_append.1 hx with hx | hx
    · exact hi.entries x hx
    · obtain ⟨p, -, rfl⟩ := List.mem_map.1 hx
      exact .inr ⟨p, rfl⟩
  · rw [List.length_append]; omega
  · rw [List.take_append_of_le_length hl]; exact hi.synced
  · rw [List.take_append_of_le_length hl]
    exact fun m hm => (hi.safe m hm).imp id fun ⟨d, h⟩ => ⟨d, List.mem_append_left _ h⟩
  · intro t _ m hm
    rcases take_append_cases xs ((P.take (min i (j / 4))).map ackOf) t with ⟨ht, e⟩ | e
    · rw [e] at hm ⊢
      exact (hi.kept t ht m hm).imp id fun ⟨d, h⟩ => ⟨d, List.mem_append_left _ h⟩
    · rw [e] at hm ⊢
      rw [hr]
      have hm' : .Publish m ∈ xs := by
        rcases List.mem_append.1 hm with h | h
        · exact h
        · obtain ⟨p, -, h⟩ := List.mem_map.1 (List.mem_of_mem_take h)
          simp [ackOf] at h
      rcases g1 m hm' with h | ⟨d, h⟩
      · rw [← List.take_append_drop (min (t - xs.length) (min i (j / 4))) P] at h
        rcases List.mem_append.1 h with h | h
        · refine .inr ⟨dup m, List.mem_append_right _ ?_⟩
          rw [e3]
          refine List.mem_map.2 ⟨m, ?_, rfl⟩
          rw [← Nat.min_eq_left (show min (t - xs.length) (min i (j / 4)) ≤ i by omega),
            ← List.take_take] at h
          exact List.mem_of_mem_take h
        · exact .inl h
      · exact .inr ⟨d, List.mem_append_left _ h⟩
  · intro t _
    rcases take_append_cases xs ((P.take (min i (j / 4))).map ackOf) t with ⟨ht, e⟩ | e
    · rw [e]; exact hi.ids t ht
    · rw [e, hr]; exact g0.sublist (List.drop_sublist _ _)
  · intro m hm
    rcases List.mem_append.1 hm with h | h
    · exact hi.submitted m h
    · obtain ⟨p, -, h⟩ := List.mem_map.1 h
      simp [ackOf] at h
  · intro q hq
    rcases List.mem_append.1 hq with h | h
    · exact hi.only q h
    · rw [e3] at h
      obtain ⟨p, hp, rfl⟩ := List.mem_map.1 h
      exact ⟨p, hi.submitted p (g2 p (List.mem_of_mem_take hp)), _, rfl⟩

theorem outbox_inv {mode : StrMode} {max max' : Option Nat} (hm' : Admits max' 2)
    {safe : List Publish} {s : Outbox} (h : Outboxes mode max max' safe s) :
    ∃ xs n, OutboxInv mode max safe s xs n := by
  induction h with
  | start =>
    exact ⟨[], 0, .nil _, by simp, by simp, ⟨[], .nil _, rfl⟩, by simp, by simp, by simp [replay], by simp, by simp⟩
  | submit _ h1 h2 h3 h4 h5 h6 h7 ih =>
    obtain ⟨xs, n, hi⟩ := ih
    exact ⟨_, _, outbox_submit hi h1 h2 h3 h4 h5 h6 h7⟩
  | sync _ h1 ih =>
    obtain ⟨xs, n, hi⟩ := ih
    exact ⟨_, _, outbox_sync hi h1⟩
  | compact _ h1 h2 ih =>
    obtain ⟨xs, n, hi⟩ := ih
    exact ⟨_, _, outbox_compact hi h1 h2⟩
  | connection _ h0 h1 h2 h3 h4 h5 h6 h7 ih =>
    obtain ⟨xs, n, hi⟩ := ih
    obtain ⟨-, -, -, -, -, h⟩ := outbox_connection hm' hi h0 h1 h2 h3 h4 h5 h6 h7
    exact ⟨_, _, h⟩
  | crash _ h1 h2 h3 ih =>
    obtain ⟨xs, n, hi⟩ := ih
    obtain ⟨q, h⟩ := outbox_crash hi h1 h2 h3
    exact ⟨_, _, h⟩

/-- C86: the file reads without an error and to its last byte at all times, and the messages pending by it
have different identifiers and have all been handed over. -/
theorem C86_file (mode : StrMode) (max max' : Option Nat) (hm' : Admits max' 2)
    (safe : List Publish) (s : Outbox) (h : Outboxes mode max max' safe s) :
    ∃ ps : List Packet, Drains mode none s.file (ps.map .ok) [] ∧
      ((replay [] (ps.map .ok)).Pairwise fun p q => p.pkid ≠ q.pkid) ∧
      ∀ m ∈ replay [] (ps.map .ok), m ∈ s.submitted := by
  obtain ⟨xs, n, hi⟩ := outbox_inv hm' h
  obtain ⟨os, torn, hd⟩ := drains_total mode none s.file
  obtain ⟨rfl, rfl⟩ := outbox_reads_all hi.written hi.entries hd
  have h1 := hi.ids xs.length (Nat.le_refl _)
  rw [List.take_length] at h1
  exact ⟨xs, hd, h1, fun m hm => hi.submitted m ((replay_mem hm).elim (by simp) id)⟩

/-- C86: no safe message is lost, however the connections break and whenever the sender crashes: each one is
pending by what is read from the file, or the receiver has read a copy of it. -/
theorem C86_safe (mode : StrMode) (max max' : Option Nat) (hm' : Admits max' 2)
    (safe : List Publish) (s : Outbox) (h : Outboxes mode max max' safe s)
    (os : List (Out Packet)) (torn : Bytes) (hd : Drains mode none s.file os torn) :
    ∀ m ∈ safe, m ∈ replay [] os ∨ ∃ d, arrival m d ∈ s.received := by
  obtain ⟨xs, n, hi⟩ := outbox_inv hm' h
  obtain ⟨rfl, rfl⟩ := outbox_reads_all hi.written hi.entries hd
  intro m hm
  have h1 := hi.kept xs.length (Nat.le_refl _) m
  rw [List.take_length] at h1
  exact (hi.safe m hm).elim (fun h => h1 (List.mem_of_mem_take h)) .inr

/-- C86: the receiver reads nothing else: each message read is a copy of one handed over. -/
theorem C86_only (mode : StrMode) (max max' : Option Nat) (hm' : Admits max' 2)
    (safe : List Publish) (s : Outbox) (h : Outboxes mode max max' safe s) :
    ∀ q ∈ s.received, ∃ m ∈ s.submitted, ∃ d, q = arrival m d := by
  obtain ⟨xs, n, hi⟩ := outbox_inv hm' h
  exact hi.only

/-- C86, what one connection does, exactly: the receiver reads the pending messages whose bytes have all
arrived; and of these, as many as whole PUBACKs, of 4 bytes each, come back are no longer pending by the
file. -/
theorem C86_connection (mode : StrMode) (max max' : Option Nat) (hm' : Admits max' 2)
    (safe : List Publish) (s : Outbox) (h : Outboxes mode max max' safe s)
    (dup : Publish → Bool) (b a torn torn' file : Bytes) (os0 os os' os1 : List (Out Packet)) (k j : Nat)
    (h0 : Drains mode none s.file os0 [])
    (h1 : WriteAll ((replay [] os0).map fun p => .Publish { p with dup := dup p }) [] b)
    (h2 : k ≤ b.length) (h3 : Drains mode max (b.take k) os torn)
    (h4 : WriteAll ((os.filterMap messageIn).map ackOf) [] a) (h5 : j ≤ a.length)
    (h6 : Drains mode max' (a.take j) os' torn') (h7 : WriteAll (os'.filterMap ackIn) s.file file)
    (h8 : Drains mode none file os1 []) :
    ∃ i, i ≤ (replay [] os0).length ∧
      (∀ n, n ≤ (replay [] os0).length → ∀ c,
        WriteAll (((replay [] os0).take n).map fun p => .Publish { p with dup := dup p }) [] c →
          (c.length ≤ k ↔ n ≤ i)) ∧
      os.filterMap messageIn = ((replay [] os0).take i).map (fun p => arrival p (dup p)) ∧
      replay [] os1 = (replay [] os0).drop (min i (j / 4)) := by
  obtain ⟨xs, n, hi⟩ := outbox_inv hm' h
  obtain ⟨i, e1, e2, e3, e4, hi'⟩ := outbox_connection hm' hi h0 h1 h2 h3 h4 h5 h6 h7
  obtain ⟨rfl, -⟩ := outbox_reads_all hi'.written hi'.entries h8
  obtain ⟨rfl, -⟩ := outbox_reads_all hi.written hi.entries h0
  have h9 := hi.ids xs.length (Nat.le_refl _)
  rw [List.take_length] at h9
  refine ⟨i, e1, e2, e3, ?_⟩
  rw [List.map_append, replay_append, e4, List.map_map]
  exact replay_acks h9 _

/-- C86: replacing the file by one that holds only the pending messages is always possible, and the same
messages, in the same order, are pending by it. -/
theorem C86_compact (mode : StrMode) (max max' : Option Nat) (hm' : Admits max' 2)
    (safe : List Publish) (s : Outbox) (h : Outboxes mode max max' safe s)
    (os : List (Out Packet)) (hd : Drains mode none s.file os []) :
    (∃ file, WriteAll ((replay [] os).map .Publish) [] file) ∧
    ∀ file, WriteAll ((replay [] os).map .Publish) [] file →
      Drains mode none file ((replay [] os).map fun p => .ok (.Publish p)) [] ∧
      replay [] ((replay [] os).map fun p => .ok (.Publish p)) = replay [] os := by
  obtain ⟨xs, n, hi⟩ := outbox_inv hm' h
  have hos := (outbox_reads_all hi.written hi.entries hd).1
  refine ⟨writeAll_total (fun p hp => ?_) [], fun file hf => ?_⟩
  · obtain ⟨q, hq, rfl⟩ := List.mem_map.1 hp
    rw [hos] at hq
    exact writeAll_encodable hi.written _ ((replay_mem hq).elim (by simp) id)
  · have hi' := outbox_compact hi hd hf
    obtain ⟨os', torn, hd'⟩ := drains_total mode none file
    obtain ⟨rfl, rfl⟩ := outbox_reads_all hi'.written hi'.entries hd'
    have h1 := replay_publishes [] (replay [] os)
    rw [List.map_map] at hd' h1
    exact ⟨hd', h1⟩

/-- C86: one connection that does not break is possible at all times, and leaves nothing pending by the file:
the receiver then has read a copy of every safe message. -/
theorem C86_done (mode : StrMode) (max max' : Option Nat) (hm' : Admits max' 2)
    (safe : List Publish) (s : Outbox) (h : Outboxes mode max max' safe s) :
    ∃ s' os', Outboxes mode max max' safe s' ∧ Drains mode none s'.file os' [] ∧ replay [] os' = [] ∧
      s'.synced = s.synced ∧ s'.submitted = s.submitted ∧ s.file <+: s'.file ∧
      s.received <+: s'.received ∧ ∀ m ∈ safe, ∃ d, arrival m d ∈ s'.received := by
  obtain ⟨xs, n, hi⟩ := outbox_inv hm' h
  obtain ⟨os0, torn0, hd0⟩ := drains_total mode none s.file
  obtain ⟨hos0, rfl⟩ := outbox_reads_all hi.written hi.entries hd0
  have h2 : ∀ p ∈ replay [] os0, p.qos = .AtLeastOnce ∧ SurvivesAlone mode max (.Publish p) := by
    intro p hp
    rw [hos0] at hp
    rcases hi.entries _ ((replay_mem hp).elim (by simp) id) with ⟨m, hm, h⟩ | ⟨m, hm⟩
    · injection hm with hm
      subst hm
      exact ⟨h.1, h.2.1⟩
    · simp [ackOf] at hm
  obtain ⟨b, hb⟩ := writeAll_total (ps := (replay [] os0).map fun p => .Publish { p with dup := true }) (by
    intro p hp
    obtain ⟨q, hq, rfl⟩ := List.mem_map.1 hp
    obtain ⟨n, w, hw, -⟩ := resend_survives (d := true) (h2 q hq).2
    exact encodable_of_ok hw) []
  obtain ⟨os, torn, hos⟩ := drains_total mode max (b.take b.length)
  obtain ⟨a, ha⟩ := writeAll_total (ps := (os.filterMap messageIn).map ackOf) (by
    intro p hp
    obtain ⟨q, hq, rfl⟩ := List.mem_map.1 hp
    exact encodable_of_ok (C47_acks q.pkid []).1) []
  obtain ⟨os', torn', hos'⟩ := drains_total mode max' (a.take a.length)
  have hacks : ∃ t, os'.filterMap ackIn = ((replay [] os0).take t).map ackOf := by
    obtain ⟨i, -, -, -, -, e⟩ :=
      connection_facts (dup := fun _ => true) hm' h2 hb (Nat.le_refl _) hos ha (Nat.le_refl _) hos'
    exact ⟨_, by rw [e, filterMap_ack]⟩
  obtain ⟨t, hacks⟩ := hacks
  obtain ⟨file, hf⟩ := writeAll_total (ps := os'.filterMap ackIn) (by
    intro p hp
    rw [hacks] at hp
    obtain ⟨q, hq, rfl⟩ := List.mem_map.1 hp
    exact encodable_of_ok (C47_acks q.pkid []).1) s.file
  have hc := Outboxes.connection (dup := fun _ => true) h hd0 hb (Nat.le_refl _) hos ha (Nat.le_refl _)
    hos' hf
  obtain ⟨os1, torn1, hd1⟩ := drains_total mode none file
  obtain ⟨xs', n', hi'⟩ := outbox_inv hm' hc
  obtain ⟨-, rfl⟩ := outbox_reads_all hi'.written hi'.entries hd1
  obtain ⟨i, e1, e2, e3, e4⟩ := C86_connection mode max max' hm' safe s h (fun _ => true) b a torn torn' file
    os0 os os' os1 _ _ hd0 hb (Nat.le_refl _) hos ha (Nat.le_refl _) hos' hf hd1
  have hi1 : i = (replay [] os0).length := by
    have := (e2 _ (Nat.le_refl _) b (by rw [List.take_length]; exact hb)).1 (Nat.le_refl _)
    omega
  have ha4 : a.length = 4 * i := by
    rw [writeAll_four ha acks_four, List.length_map, e3, List.length_map, List.length_take, hi1]
    simp
  have hnil : replay [] os1 = [] := by
    rw [e4, ha4, show min i (4 * i / 4) = (replay [] os0).length by omega, List.drop_length]
  refine ⟨_, os1, hc, hd1, hnil, rfl, rfl, ?_, List.prefix_append _ _, fun m hm => ?_⟩
  · obtain ⟨ws, -, rfl, -⟩ := writeAll_parts hf (by
      intro p hp
      obtain ⟨o, -, hq⟩ := List.mem_filterMap.1 hp
      unfold ackIn at hq
      split at hq
      · injection hq with hq
        subst hq
        exact id
      · simp at hq)
    exact List.prefix_append _ _
  · have := C86_safe mode max max' hm' safe _ hc os1 [] hd1 m hm
    rw [hnil] at this
    exact this.elim (by simp) id

/-- The hypotheses are met: a first message is synced and read by the receiver, but its PUBACK is cut; a
second one is lost from the file in a crash; then the first is sent again and acknowledged, and the crash that
follows loses the record of that. The message is still pending then. -/
example (m m' : Publish) (e : m = {
      dup := false, qos := .AtLeastOnce, retain := false, topic := [97], pkid := 7, payload := [1]
      properties := none }) (e' : m' = {
      dup := false, qos := .AtLeastOnce, retain := false, topic := [98], pkid := 8, payload := [2]
      properties := none }) :
    Outboxes .utf8 none (some 2) [m] {
      file := [0x32, 7, 0, 1, 97, 0, 7, 0, 1], synced := 9, submitted := [m, m']
      received := [m, { m with dup := true }] } := by
  subst e e'
  have hd0 : Drains .utf8 none [0x32, 7, 0, 1, 97, 0, 7, 0, 1] [.ok (.Publish {
      dup := false, qos := .AtLeastOnce, retain := false, topic := [97], pkid := 7, payload := [1]
      properties := none })] [] :=
    .step (b1 := []) (by decide +kernel) (by simp) (.stop (by decide +kernel))
  have h0 := Outboxes.submit (mode := .utf8) (toReceiver := none) (toSender := some 2) (safe := [])
    (m := { dup := false, qos := .AtLeastOnce, retain := false, topic := [97], pkid := 7, payload := [1]
            properties := none }) (n := 9) (n' := 9) (os := []) (w := [0x32, 7, 0, 1, 97, 0, 7, 0, 1])
    (file := [0x32, 7, 0, 1, 97, 0, 7, 0, 1])
    .start (.stop (by decide +kernel)) (by simp [replay]) rfl rfl (by decide +kernel) (by decide +kernel)
    (by decide +kernel)
  have h1 := Outboxes.sync h0 hd0
  have h2 := Outboxes.connection (dup := fun _ => false) (b := [0x32, 7, 0, 1, 97, 0, 7, 0, 1]) (k := 9)
    (os := [.ok (.Publish { dup := false, qos := .AtLeastOnce, retain := false, topic := [97], pkid := 7,
                            payload := [1], properties := none })]) (torn := [])
    (a := [0x40, 2, 0, 7]) (j := 3) (os' := []) (torn' := [0x40, 2, 0])
    (file := [0x32, 7, 0, 1, 97, 0, 7, 0, 1]) h1 hd0
    (.cons (n := 9) (b1 := [0x32, 7, 0, 1, 97, 0, 7, 0, 1]) (by decide +kernel) (.nil _)) (by simp)
    hd0 (.cons (n := 4) (b1 := [0x40, 2, 0, 7]) (by decide +kernel) (.nil _)) (by simp)
    (.stop (by decide +kernel)) (.nil _)
  have h3 := Outboxes.submit
    (m := { dup := false, qos := .AtLeastOnce, retain := false, topic := [98], pkid := 8, payload := [2]
            properties := none }) (n := 9) (n' := 9) (w := [0x32, 7, 0, 1, 98, 0, 8, 0, 2])
    (file := [0x32, 7, 0, 1, 97, 0, 7, 0, 1, 0x32, 7, 0, 1, 98, 0, 8, 0, 2])
    h2 hd0 (by simp [replay]) rfl rfl (by decide +kernel) (by decide +kernel) (by decide +kernel)
  have hd1 : Drains .utf8 none [0x32, 7, 0, 1, 97, 0, 7, 0, 1, 0x32, 7, 0, 1, 98] [.ok (.Publish {
      dup := false, qos := .AtLeastOnce, retain := false, topic := [97], pkid := 7, payload := [1]
      properties := none })] [0x32, 7, 0, 1, 98] :=
    .step (b1 := [0x32, 7, 0, 1, 98]) (by decide +kernel) (by simp) (.stop (by decide +kernel))
  have h4 := Outboxes.crash (k := 14) (torn := [0x32, 7, 0, 1, 98]) h3 (by decide) (by decide) hd1
  have h5 := Outboxes.connection (dup := fun _ => true) (b := [0x3A, 7, 0, 1, 97, 0, 7, 0, 1]) (k := 9)
    (os := [.ok (.Publish { dup := true, qos := .AtLeastOnce, retain := false, topic := [97], pkid := 7,
                            payload := [1], properties := none })]) (torn := [])
    (a := [0x40, 2, 0, 7]) (j := 4)
    (os' := [.ok (.PubAck { pkid := 7, reason := .Success, properties := none })]) (torn' := [])
    (file := [0x32, 7, 0, 1, 97, 0, 7, 0, 1, 0x40, 2, 0, 7]) h4 hd0
    (.cons (n := 9) (b1 := [0x3A, 7, 0, 1, 97, 0, 7, 0, 1]) (by decide +kernel) (.nil _)) (by simp)
    (.step (b1 := []) (by decide +kernel) (by simp) (.stop (by decide +kernel)))
    (.cons (n := 4) (b1 := [0x40, 2, 0, 7]) (by decide +kernel) (.nil _)) (by simp)
    (.step (b1 := []) (by decide +kernel) (by simp) (.stop (by decide +kernel)))
    (.cons (n := 4) (b1 := [0x32, 7, 0, 1, 97, 0, 7, 0, 1, 0x40, 2, 0, 7]) (by decide +kernel) (.nil _))
  have hd2 : Drains .utf8 none [0x32, 7, 0, 1, 97, 0, 7, 0, 1, 0x40] [.ok (.Publish {
      dup := false, qos := .AtLeastOnce, retain := false, topic := [97], pkid := 7, payload := [1]
      properties := none })] [0x40] :=
    .step (b1 := [0x40]) (by decide +kernel) (by simp) (.stop (by decide +kernel))
  exact Outboxes.crash (k := 10) (torn := [0x40]) h5 (by decide) (by decide) hd2

end Props
