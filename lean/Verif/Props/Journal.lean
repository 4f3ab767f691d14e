import Verif.Spec.Journal
import Verif.Props.Once
/-
C87: QoS 2 messages to a receiver that crashes.
-/
namespace Props

open Mqtt Spec

theorem journal_writeAll_append {xs ys : List Packet} {b b1 b2 : Bytes} (h1 : WriteAll xs b b1)
    (h2 : WriteAll ys b1 b2) : WriteAll (xs ++ ys) b b2 := by
  induction h1 with
  | nil => exact h2
  | cons h _ ih => exact .cons h (ih h2)

theorem handle_other (seen : List UInt16) {o : Out Packet} (h1 : ∀ p, o = .ok (.Publish p) → False)
    (h2 : ∀ a, o = .ok (.PubRel a) → False) (os : List (Out Packet)) :
    handle seen (o :: os) = handle seen os := by
  cases o with
  | ok p =>
    cases p with
    | Publish p => exact (h1 p rfl).elim
    | PubRel a => exact (h2 a rfl).elim
    | _ => rfl
  | _ => rfl

theorem handle_append (seen : List UInt16) (os os' : List (Out Packet)) :
    (handle seen (os ++ os')).1 = (handle (handle seen os).1 os').1 ∧
    (handle seen (os ++ os')).2.1 = (handle seen os).2.1 ++ (handle (handle seen os).1 os').2.1 := by
  fun_induction handle seen os with
  | case1 => simp
  | case2 seen p os a h r ih => simpa [handle, h] using ih
  | case3 seen p os a h r ih => simpa [handle, h] using ih
  | case4 seen a os r ih => exact ih
  | case5 seen o os h1 h2 ih =>
    rw [List.cons_append, show handle seen (o :: (os ++ os')) = handle seen (os ++ os') by
      exact handle_other _ h1 h2 _]
    exact ih

/-- What the receiver writes to its file. -/
def Noted (mode : StrMode) (x : Packet) : Prop :=
  ¬ IsConnect x ∧ SurvivesAlone mode none x ∧ norm x = x

/-- What is read from the file, or from its beginning. -/
theorem journal_reads {mode : StrMode} {xs : List Packet} {file : Bytes}
    (hw : WriteAll xs [] file) (hx : ∀ x ∈ xs, Noted mode x) {k : Nat} (hk : k ≤ file.length)
    {os : List (Out Packet)} {torn : Bytes} (hd : Drains mode none (file.take k) os torn) :
    ∃ q, q ≤ xs.length ∧ os = (xs.take q).map .ok ∧
      WriteAll (xs.take q) [] (file.take (k - torn.length)) ∧ torn.length ≤ k ∧
      ∀ i, i ≤ xs.length → ∀ c, WriteAll (xs.take i) [] c → (c.length ≤ k ↔ i ≤ q) := by
  obtain ⟨h1, h2, ⟨c, h3, h4⟩, h5, -⟩ := C84_broken mode none xs file hw
    (fun x h => (hx x h).1) (fun x h => (hx x h).2.1) k hk os torn hd
  have h6 := congrArg List.length h4
  rw [List.length_take, Nat.min_eq_left hk, List.length_append] at h6
  refine ⟨os.length, h1, ?_, ?_, by omega, h5⟩
  · conv => lhs; rw [h2]
    exact List.map_congr_left fun x h => by rw [(hx x (List.mem_of_mem_take h)).2.2]
  · rw [show k - torn.length = c.length by omega]
    have : file.take c.length = c := by
      have := congrArg (List.take c.length) h4
      rwa [List.take_take, Nat.min_eq_left (by omega), List.take_left'] at this
      rfl
    rw [this]; exact h3

theorem journal_reads_all {mode : StrMode} {xs : List Packet} {file : Bytes}
    (hw : WriteAll xs [] file) (hx : ∀ x ∈ xs, Noted mode x)
    {os : List (Out Packet)} {torn : Bytes} (hd : Drains mode none file os torn) :
    os = xs.map .ok ∧ torn = [] := by
  obtain ⟨q, h1, h2, h3, h4, h5⟩ := journal_reads hw hx (Nat.le_refl _)
    (by rw [List.take_length]; exact hd)
  have h6 := (h5 xs.length (Nat.le_refl _) file (by rw [List.take_length]; exact hw)).1 (Nat.le_refl _)
  have h7 : q = xs.length := by omega
  subst h7
  rw [List.take_length] at h2 h3
  refine ⟨h2, ?_⟩
  have h8 := congrArg List.length (writeAll_unique hw h3)
  rw [List.length_take] at h8
  exact List.length_eq_zero_iff.1 (by omega)

/-- What the file stands for. -/
def asOnce (pending : List (Publish × Bool)) (os : List (Out Packet)) : Once :=
  { pending := pending, seen := (handle [] os).1, received := (handle [] os).2.1 }

/-- What holds at all times. -/
structure JournalInv (mode : StrMode) (max max' : Option Nat) (all : List Publish) (s : Journal)
    (xs : List Packet) : Prop where
  written : WriteAll xs [] s.file
  entries : ∀ x ∈ xs, Noted mode x
  norm : ∀ x ∈ s.pending, norm (.Publish x.1) = .Publish x.1
  rounds : Rounds mode max max' all (asOnce s.pending (xs.map .ok))

theorem notes_sent {dup : Publish → Bool} {l : List (Publish × Bool)}
    (hn : ∀ x ∈ l, norm (.Publish x.1) = .Publish x.1) (hq : ∀ x ∈ l, x.1.qos = .ExactlyOnce) :
    (l.map (sent dup)).filterMap noted = l.map (toSend dup) ∧
    l.map (sent dup) = (l.map (toSend dup)).map .ok := by
  have h : ∀ x ∈ l, sent dup x = .ok (toSend dup x) := by
    rintro ⟨p, _ | _⟩ hx
    · have h1 := hn _ hx
      have h2 := hq _ hx
      simp only [norm, h2] at h1 
      injection h1 with h1
      have h3 := congrArg Publish.properties h1
      simp only at h3
      simp only [sent, toSend, arrival, h3]
    · rfl
  constructor
  · refine filterMap_map_some fun x hx => ?_
    rw [h x hx]
    rcases x with ⟨p, _ | _⟩ <;> rfl
  · rw [List.map_map]
    exact List.map_congr_left h

theorem settle_norm {P : Publish → Prop} {pending : List (Publish × Bool)} {os : List (Out Packet)}
    (h : ∀ x ∈ pending, P x.1) : ∀ x ∈ settle pending os, P x.1 := by
  fun_induction settle pending os with
  | case1 => exact h
  | case2 pending a os ih =>
    refine ih fun x hx => ?_
    obtain ⟨y, hy, rfl⟩ := List.mem_map.1 hx
    split <;> exact h y hy
  | case3 pending a os ih => exact ih fun x hx => h x (List.mem_filter.1 hx).1
  | case4 pending o os h1 h2 ih => exact ih h

/-- The packets sent in a round can be kept in the file. -/
theorem toSend_noted {mode : StrMode} {max : Option Nat} {dup : Publish → Bool} {x : Publish × Bool}
    (hn : norm (.Publish x.1) = .Publish x.1) (hq : x.1.qos = .ExactlyOnce)
    (hs : SurvivesAlone mode max (.Publish x.1)) : Noted mode (toSend dup x) := by
  rcases x with ⟨p, _ | _⟩
  · obtain ⟨n, w, hw, hr⟩ := resend_survives (d := dup p) hs
    obtain ⟨b1, v, bd, e1, e2, e3, e4, e5⟩ := read_ok_iff.1 hr
    refine ⟨id, ⟨n, w, hw, read_ok_iff.2 ⟨b1, v, bd, e1, e2, by simp [OverLimit], e4, e5⟩⟩, ?_⟩
    simp only [norm, hq] at hn
    injection hn with hn
    have h3 := congrArg Publish.properties hn
    simp only at h3
    simp only at h3 hq
    simp [toSend, norm, hq, h3]
  · exact ⟨id, rel_survives mode none (by simp [Admits]) p.pkid, rfl⟩

/-- A round whose first `t` packets arrive, and no answer. -/
theorem silent_round {mode : StrMode} {max max' : Option Nat} (hm : Admits max 2) (hm' : Admits max' 2)
    {all : List Publish} {s : Once} (h : Rounds mode max max' all s) {dup : Publish → Bool} {b : Bytes}
    (hb : WriteAll (s.pending.map (toSend dup)) [] b) (t : Nat) :
    Rounds mode max max' all { s with
      seen := (handle s.seen ((s.pending.take t).map (sent dup))).1
      received := s.received ++ (handle s.seen ((s.pending.take t).map (sent dup))).2.1 } := by
  obtain ⟨done, R, K, F, ds, hI⟩ := rounds_inv hm hm' h
  have hp : ∀ x ∈ s.pending, x.1.qos = .ExactlyOnce ∧ SurvivesAlone mode max (.Publish x.1) :=
    fun x hx => hI.survive _ (mem_parts (hI.pending ▸ hx))
  have hd : s.pending.Pairwise fun x y => x.1.pkid ≠ y.1.pkid := by
    rw [hI.pending]; exact distinct_parts hI.distinct
  have henc : ∀ l : List (Publish × Bool), (∀ x ∈ l, x ∈ s.pending) →
      ∀ p ∈ l.map (toSend dup), Encodable p := by
    intro l hl p hp'
    exact writeAll_encodable hb p (by
      obtain ⟨x, hx, rfl⟩ := List.mem_map.1 hp'
      exact List.mem_map.2 ⟨x, hl x hx, rfl⟩)
  obtain ⟨c, hc⟩ := writeAll_total (henc (s.pending.take t) fun x hx => List.mem_of_mem_take hx) []
  obtain ⟨b', hb'⟩ := writeAll_total (henc (s.pending.drop t) fun x hx => List.mem_of_mem_drop hx) c
  have hconn : ∀ p ∈ (s.pending.drop t).map (toSend dup), ¬ IsConnect p := by
    intro p hp'
    obtain ⟨⟨q, _ | _⟩, hq, rfl⟩ := List.mem_map.1 hp' <;> exact id
  obtain ⟨ws, -, rfl, -⟩ := writeAll_parts hb' hconn
  have hall := journal_writeAll_append hc hb'
  rw [← List.map_append, List.take_append_drop] at hall
  obtain rfl := writeAll_unique hb hall
  obtain ⟨os, torn, hos⟩ := drains_total mode max ((c ++ bytesOf ws).take c.length)
  obtain ⟨a, ha⟩ := writeAll_total (ps := (handle s.seen os).2.2) (by
    intro p hp
    obtain ⟨k, rfl | rfl⟩ := handle_replies s.seen os p hp
    · exact encodable_of_ok (C47_acks k []).2.1
    · exact encodable_of_ok (C47_acks k []).2.2.2) []
  obtain ⟨os', torn', hos'⟩ := drains_total mode max' (a.take 0)
  have hr := Rounds.round h hall (by simp) hos ha (Nat.zero_le _) hos'
  obtain ⟨i, g1, g2, g3, g4, -, -⟩ := round_wire hm hm' hd hp hall (by simp) hos ha (Nat.zero_le _) hos'
  have hos0 : os = (s.pending.take t).map (sent dup) := by
    obtain ⟨os2, torn2, hos2⟩ := drains_total mode max (c.take c.length)
    have hsub : (s.pending.take t).Pairwise fun x y => x.1.pkid ≠ y.1.pkid :=
      hd.sublist (List.take_sublist _ _)
    obtain ⟨a2, ha2⟩ := writeAll_total (ps := (handle s.seen os2).2.2) (by
      intro p hp
      obtain ⟨k, rfl | rfl⟩ := handle_replies s.seen os2 p hp
      · exact encodable_of_ok (C47_acks k []).2.1
      · exact encodable_of_ok (C47_acks k []).2.2.2) []
    obtain ⟨os3, torn3, hos3⟩ := drains_total mode max' (a2.take 0)
    obtain ⟨i2, f1, -, f3, -, f5, -⟩ := round_wire hm hm' hsub
      (fun x hx => hp x (List.mem_of_mem_take hx)) hc (Nat.le_refl _) hos2 ha2 (Nat.zero_le _) hos3
    rw [f5 rfl, List.take_length] at f3
    rw [List.take_left' rfl] at hos
    rw [List.take_length] at hos2
    rw [(drains_det hos hos2).1, f3]
  subst hos0
  rw [g4] at hr
  simp only [Nat.zero_div, Nat.min_zero, List.take_zero, List.map_nil, settle] at hr
  exact hr

theorem rounds_pending {mode : StrMode} {max max' : Option Nat} (hm : Admits max 2) (hm' : Admits max' 2)
    {all : List Publish} {s : Once} (h : Rounds mode max max' all s) :
    (s.pending.Pairwise fun x y => x.1.pkid ≠ y.1.pkid) ∧
      ∀ x ∈ s.pending, x.1.qos = .ExactlyOnce ∧ SurvivesAlone mode max (.Publish x.1) := by
  obtain ⟨done, R, K, F, ds, hI⟩ := rounds_inv hm hm' h
  exact ⟨by rw [hI.pending]; exact distinct_parts hI.distinct,
    fun x hx => hI.survive _ (mem_parts (hI.pending ▸ hx))⟩

/-- What the receiver reads in a round, and writes to its file. -/
theorem journal_wire {mode : StrMode} {max max' : Option Nat} (hm : Admits max 2) (hm' : Admits max' 2)
    {all : List Publish} {s : Journal} {xs : List Packet} (hi : JournalInv mode max max' all s xs)
    {dup : Publish → Bool} {b torn : Bytes} {os : List (Out Packet)} {k : Nat}
    (h1 : WriteAll (s.pending.map (toSend dup)) [] b) (h2 : k ≤ b.length)
    (h3 : Drains mode max (b.take k) os torn) :
    ∃ i, i ≤ s.pending.length ∧
      (∀ n, n ≤ s.pending.length → ∀ c, WriteAll ((s.pending.take n).map (toSend dup)) [] c →
        (c.length ≤ k ↔ n ≤ i)) ∧
      os = (s.pending.take i).map (sent dup) ∧
      os = ((s.pending.take i).map (toSend dup)).map .ok ∧
      os.filterMap noted = (s.pending.take i).map (toSend dup) ∧
      ∀ x ∈ (s.pending.take i).map (toSend dup), Noted mode x := by
  obtain ⟨hd, hp⟩ := rounds_pending hm hm' hi.rounds
  simp only [asOnce] at hd hp
  obtain ⟨a, ha⟩ := writeAll_total (ps := (handle [] os).2.2) (by
    intro p hp
    obtain ⟨k, rfl | rfl⟩ := handle_replies [] os p hp
    · exact encodable_of_ok (C47_acks k []).2.1
    · exact encodable_of_ok (C47_acks k []).2.2.2) []
  obtain ⟨os', torn', hos'⟩ := drains_total mode max' (a.take 0)
  obtain ⟨i, g1, g2, g3, -, -, -⟩ := round_wire hm hm' hd hp h1 h2 h3 ha (Nat.zero_le _) hos'
  obtain ⟨n1, n2⟩ := notes_sent (dup := dup) (l := s.pending.take i)
    (fun x hx => hi.norm x (List.mem_of_mem_take hx)) (fun x hx => (hp x (List.mem_of_mem_take hx)).1)
  refine ⟨i, g1, g2, g3, by rw [← n2, g3], by rw [g3, n1], ?_⟩
  intro x hx
  obtain ⟨y, hy, rfl⟩ := List.mem_map.1 hx
  have hy := List.mem_of_mem_take hy
  exact toSend_noted (hi.norm y hy) (hp y hy).1 (hp y hy).2

theorem journal_round {mode : StrMode} {max max' : Option Nat} (hm : Admits max 2) (hm' : Admits max' 2)
    {all : List Publish} {s : Journal} {xs : List Packet} (hi : JournalInv mode max max' all s xs)
    {dup : Publish → Bool} {b a torn torn' file : Bytes} {os0 os os' : List (Out Packet)} {k j : Nat}
    (h0 : Drains mode none s.file os0 [])
    (h1 : WriteAll (s.pending.map (toSend dup)) [] b) (h2 : k ≤ b.length)
    (h3 : Drains mode max (b.take k) os torn) (h4 : WriteAll (os.filterMap noted) s.file file)
    (h5 : WriteAll (handle (handle [] os0).1 os).2.2 [] a) (h6 : j ≤ a.length)
    (h7 : Drains mode max' (a.take j) os' torn') :
    ∃ ys, os = ys.map .ok ∧
      JournalInv mode max max' all { pending := settle s.pending os', file := file } (xs ++ ys) := by
  obtain ⟨rfl, -⟩ := journal_reads_all hi.written hi.entries h0
  obtain ⟨i, -, -, -, e2, e3, e4⟩ := journal_wire hm hm' hi h1 h2 h3
  refine ⟨_, e2, journal_writeAll_append hi.written (e3 ▸ h4), ?_, ?_, ?_⟩
  · intro x hx
    exact (List.mem_append.1 hx).elim (hi.entries x) (e4 x)
  · exact settle_norm (P := fun p => Spec.norm (.Publish p) = .Publish p) hi.norm
  · have := Rounds.round hi.rounds h1 h2 h3 h5 h6 h7
    simp only [asOnce] at this
    simp only [asOnce]
    rw [List.map_append, ← e2, (handle_append _ _ _).1, (handle_append _ _ _).2]
    exact this

theorem journal_crash {mode : StrMode} {max max' : Option Nat} (hm : Admits max 2) (hm' : Admits max' 2)
    {all : List Publish} {s : Journal} {xs : List Packet} (hi : JournalInv mode max max' all s xs)
    {dup : Publish → Bool} {b torn rest file : Bytes} {os os' : List (Out Packet)} {k l : Nat}
    (h1 : WriteAll (s.pending.map (toSend dup)) [] b) (h2 : k ≤ b.length)
    (h3 : Drains mode max (b.take k) os torn) (h4 : WriteAll (os.filterMap noted) s.file file)
    (h5 : s.file.length ≤ l) (h6 : l ≤ file.length) (h7 : Drains mode none (file.take l) os' rest) :
    ∃ t, t ≤ os.length ∧ ∃ ys, os.take t = ys.map .ok ∧
      JournalInv mode max max' all { s with file := file.take (l - rest.length) } (xs ++ ys) := by
  obtain ⟨i, e0, -, e1, e2, e3, e4⟩ := journal_wire hm hm' hi h1 h2 h3
  have hx : ∀ x ∈ xs ++ (s.pending.take i).map (toSend dup), Noted mode x := fun x hx =>
    (List.mem_append.1 hx).elim (hi.entries x) (e4 x)
  rw [e3] at h4
  obtain ⟨q, f1, -, f3, -, f5⟩ := journal_reads (journal_writeAll_append hi.written h4) hx h6 h7
  have hq : xs.length ≤ q := (f5 xs.length (by simp) s.file (by
    rw [List.take_left' rfl]; exact hi.written)).1 h5
  rw [List.take_append, List.take_of_length_le hq] at f3
  have hl : os.length = i := by rw [e1, List.length_map, List.length_take]; omega
  have hql : q - xs.length ≤ i := by
    rw [List.length_append, List.length_map, List.length_take] at f1
    omega
  refine ⟨q - xs.length, by omega, ((s.pending.take i).map (toSend dup)).take (q - xs.length),
    by rw [e2, ← List.map_take], f3, ?_, hi.norm, ?_⟩
  · intro x hx'
    exact (List.mem_append.1 hx').elim (hi.entries x) fun h => e4 x (List.mem_of_mem_take h)
  · have := silent_round hm hm' hi.rounds h1 (q - xs.length)
    simp only [asOnce] at this
    simp only [asOnce]
    rw [← List.map_take, List.take_take, Nat.min_eq_left hql, List.map_append,
      (handle_append _ _ _).1, (handle_append _ _ _).2]
    have hn := (notes_sent (dup := dup) (l := s.pending.take (q - xs.length))
      (fun x hx => hi.norm x (List.mem_of_mem_take hx))
      (fun x hx => ((rounds_pending hm hm' hi.rounds).2 x (List.mem_of_mem_take hx)).1)).2
    rw [← hn]
    exact this

theorem journals_inv {mode : StrMode} {max max' : Option Nat} (hm : Admits max 2) (hm' : Admits max' 2)
    {all : List Publish} {s : Journal} (h : Journals mode max max' all s) :
    ∃ xs, JournalInv mode max max' all s xs := by
  induction h with
  | start => exact ⟨[], .nil _, by simp, by simp, .start⟩
  | @submit all s m _ h1 h2 h3 h4 ih =>
    obtain ⟨xs, hi⟩ := ih
    refine ⟨xs, hi.written, hi.entries, ?_, ?_⟩
    · intro x hx
      rcases List.mem_append.1 hx with hx | hx
      · exact hi.norm x hx
      · obtain rfl := List.mem_singleton.1 hx
        exact h2
    · exact Rounds.submit hi.rounds h1 h3 (by rw [h2]; exact h4)
  | round _ h0 h1 h2 h3 h4 h5 h6 h7 ih =>
    obtain ⟨xs, hi⟩ := ih
    obtain ⟨ys, -, h⟩ := journal_round hm hm' hi h0 h1 h2 h3 h4 h5 h6 h7
    exact ⟨_, h⟩
  | crash _ h1 h2 h3 h4 h5 h6 h7 ih =>
    obtain ⟨xs, hi⟩ := ih
    obtain ⟨t, -, ys, -, h⟩ := journal_crash hm hm' hi h1 h2 h3 h4 h5 h6 h7
    exact ⟨_, h⟩

/-- C87: the file reads without an error and to its last byte at all times; and what the sender and the
receiver have, if the file is taken for the receiver's memory, is what they could have had without any crash
(C85). -/
theorem C87_file (mode : StrMode) (max max' : Option Nat) (hm : Admits max 2) (hm' : Admits max' 2)
    (all : List Publish) (s : Journal) (h : Journals mode max max' all s) :
    ∃ ps : List Packet, Drains mode none s.file (ps.map .ok) [] ∧
      Rounds mode max max' all {
        pending := s.pending
        seen := (handle [] (ps.map .ok)).1
        received := (handle [] (ps.map .ok)).2.1 } := by
  obtain ⟨xs, hi⟩ := journals_inv hm hm' h
  obtain ⟨os, torn, hd⟩ := drains_total mode none s.file
  obtain ⟨rfl, rfl⟩ := journal_reads_all hi.written hi.entries hd
  exact ⟨xs, hd, hi.rounds⟩

/-- C87: exactly once. The messages that the receiver has passed on, by its file, are the first ones handed
over, each once and in order, up to the DUP flag; and those that the sender has completed are among them. -/
theorem C87_once (mode : StrMode) (max max' : Option Nat) (hm : Admits max 2) (hm' : Admits max' 2)
    (all : List Publish) (s : Journal) (h : Journals mode max max' all s)
    (os : List (Out Packet)) (torn : Bytes) (hd : Drains mode none s.file os torn) :
    ∃ (done : List Publish) (ds : List (Publish × Bool)), all = done ++ s.pending.map (·.1) ∧
      (handle [] os).2.1 = ds.map (fun x => arrival x.1 x.2) ∧
      done <+: ds.map (·.1) ∧ ds.map (·.1) <+: all := by
  obtain ⟨ps, h1, h2⟩ := C87_file mode max max' hm hm' all s h
  obtain ⟨rfl, rfl⟩ := drains_det hd h1
  exact C85_once mode max max' hm hm' all _ h2

/-- C87: what the receiver has passed on is never taken back, in a round or in a crash: what it has passed on
before is the beginning of what it has passed on after. -/
theorem C87_keeps (mode : StrMode) (max max' : Option Nat) (hm : Admits max 2) (hm' : Admits max' 2)
    (all : List Publish) (s : Journal) (h : Journals mode max max' all s)
    (dup : Publish → Bool) (b torn rest file : Bytes) (os os' os0 os1 : List (Out Packet)) (k l : Nat)
    (h1 : WriteAll (s.pending.map (toSend dup)) [] b) (h2 : k ≤ b.length)
    (h3 : Drains mode max (b.take k) os torn) (h4 : WriteAll (os.filterMap noted) s.file file)
    (h5 : s.file.length ≤ l) (h6 : l ≤ file.length) (h7 : Drains mode none (file.take l) os' rest)
    (h8 : Drains mode none s.file os0 [])
    (h9 : Drains mode none (file.take (l - rest.length)) os1 []) :
    (∃ t, os1 = os0 ++ os.take t) ∧ (handle [] os0).2.1 <+: (handle [] os1).2.1 ∧
    (l = file.length → os1 = os0 ++ os) := by
  obtain ⟨xs, hi⟩ := journals_inv hm hm' h
  obtain ⟨rfl, -⟩ := journal_reads_all hi.written hi.entries h8
  obtain ⟨t, -, ys, e1, hi'⟩ := journal_crash hm hm' hi h1 h2 h3 h4 h5 h6 h7
  obtain ⟨rfl, -⟩ := journal_reads_all hi'.written hi'.entries h9
  refine ⟨⟨t, by rw [e1, List.map_append]⟩, ?_, ?_⟩
  · rw [List.map_append, (handle_append _ _ _).2]
    exact List.prefix_append _ _
  · rintro rfl
    obtain ⟨i, -, -, -, e2, e3, e4⟩ := journal_wire hm hm' hi h1 h2 h3
    rw [e3] at h4
    have hw := journal_writeAll_append hi.written h4
    have hx : ∀ x ∈ xs ++ (s.pending.take i).map (toSend dup), Noted mode x := fun x hx =>
      (List.mem_append.1 hx).elim (hi.entries x) (e4 x)
    rw [List.take_length] at h7
    obtain ⟨-, rfl⟩ := journal_reads_all hw hx h7
    simp only [List.length_nil, Nat.sub_zero, List.take_length] at h9
    rw [(journal_reads_all hw hx h9).1, e2, List.map_append]

/-- A round that does not break can always follow. -/
theorem journal_full {mode : StrMode} {max max' : Option Nat} (hm : Admits max 2) (hm' : Admits max' 2)
    {all : List Publish} {s : Journal} (h : Journals mode max max' all s) {xs : List Packet}
    (hi : JournalInv mode max max' all s xs) {done R K F : List Publish} {ds : List (Publish × Bool)}
    (hI : OnceInv mode max all (asOnce s.pending (xs.map .ok)) done R K F ds) :
    ∃ s' xs' done' R' ds', Journals mode max max' all s' ∧ JournalInv mode max max' all s' xs' ∧
      OnceInv mode max all (asOnce s'.pending (xs'.map .ok)) done' R' [] [] ds' ∧
      (K = [] → F = [] → R' = []) ∧ s.file <+: s'.file := by
  obtain ⟨b, a, torn, torn', os, os', hb, hos, ha, hos', done', R', ds', hI', h0⟩ := full_data hm hm' hI
  obtain ⟨os0, torn0, hd0⟩ := drains_total mode none s.file
  obtain ⟨hos0, rfl⟩ := journal_reads_all hi.written hi.entries hd0
  obtain ⟨i, -, -, -, e2, e3, e4⟩ := journal_wire hm hm' hi hb (Nat.le_refl _) hos
  obtain ⟨file, hf⟩ := writeAll_total (ps := os.filterMap noted) (by
    intro p hp
    rw [e3] at hp
    obtain ⟨n, w, hw, -⟩ := (e4 p hp).2.1
    exact encodable_of_ok hw) s.file
  simp only [asOnce] at ha
  rw [← hos0] at ha
  obtain ⟨ys, e5, hi'⟩ := journal_round hm hm' hi hd0 hb (Nat.le_refl _) hos hf ha (Nat.le_refl _) hos'
  refine ⟨_, _, done', R', ds', .round h hd0 hb (Nat.le_refl _) hos hf ha (Nat.le_refl _) hos', hi', ?_,
    h0, ?_⟩
  · simp only [asOnce]
    simp only [asOnce] at hI'
    rw [List.map_append, ← e5, (handle_append _ _ _).1, (handle_append _ _ _).2]
    exact hI'
  · obtain ⟨ws, -, rfl, -⟩ := writeAll_parts hf (by
      rw [e3]; exact fun p hp => (e4 p hp).1)
    exact List.prefix_append _ _

/-- C87: two rounds that do not break are always possible, and complete every message: by its file, the
receiver then has passed on each of them, once and in order, and remembers nothing. -/
theorem C87_done (mode : StrMode) (max max' : Option Nat) (hm : Admits max 2) (hm' : Admits max' 2)
    (all : List Publish) (s : Journal) (h : Journals mode max max' all s) :
    ∃ s' os, Journals mode max max' all s' ∧ s.file <+: s'.file ∧ s'.pending = [] ∧
      Drains mode none s'.file os [] ∧ (handle [] os).1 = [] ∧
      ∃ ds : List (Publish × Bool), ds.map (·.1) = all ∧
        (handle [] os).2.1 = ds.map fun x => arrival x.1 x.2 := by
  obtain ⟨xs, hi⟩ := journals_inv hm hm' h
  obtain ⟨done, R, K, F, ds, hI⟩ := rounds_inv hm hm' hi.rounds
  obtain ⟨s1, xs1, done1, R1, ds1, h1, hi1, hI1, -, g1⟩ := journal_full hm hm' h hi hI
  obtain ⟨s2, xs2, done2, R2, ds2, h2, hi2, hI2, h0, g2⟩ := journal_full hm hm' h1 hi1 hI1
  obtain rfl := h0 rfl rfl
  obtain ⟨os, torn, hd⟩ := drains_total mode none s2.file
  obtain ⟨rfl, rfl⟩ := journal_reads_all hi2.written hi2.entries hd
  refine ⟨s2, _, h2, g1.trans g2, hI2.pending, hd, ?_, ds2, ?_, hI2.got⟩
  · refine List.eq_nil_iff_forall_not_mem.2 fun k hk => ?_
    obtain ⟨p, hp, -⟩ := hI2.seen.2 k hk
    simp at hp
  · rw [hI2.ds_eq, hI2.all_eq]; rfl

/-- The hypotheses are met: in the first round the receiver crashes and the PUBLISH is cut from its file; in
the second it crashes after the sync but before the answer; in the third it reads the message again and
answers; in the fourth the message is completed. By the file it has been passed on once. -/
example (m : Publish) (e : m = {
      dup := false, qos := .ExactlyOnce, retain := false, topic := [97], pkid := 7, payload := [1]
      properties := none }) :
    ∃ s os, Journals .utf8 none (some 2) [m] s ∧ s.pending = [] ∧
      s.file = [0x34, 7, 0, 1, 97, 0, 7, 0, 1, 0x3C, 7, 0, 1, 97, 0, 7, 0, 1, 0x62, 2, 0, 7] ∧
      Drains .utf8 none s.file os [] ∧ (handle [] os).2.1 = [m] := by
  subst e
  have hF : Drains .utf8 none [0x34, 7, 0, 1, 97, 0, 7, 0, 1] [.ok (.Publish {
      dup := false, qos := .ExactlyOnce, retain := false, topic := [97], pkid := 7, payload := [1]
      properties := none })] [] :=
    .step (b1 := []) (by decide +kernel) (by simp) (.stop (by decide +kernel))
  have hT : Drains .utf8 none [0x3C, 7, 0, 1, 97, 0, 7, 0, 1] [.ok (.Publish {
      dup := true, qos := .ExactlyOnce, retain := false, topic := [97], pkid := 7, payload := [1]
      properties := none })] [] :=
    .step (b1 := []) (by decide +kernel) (by simp) (.stop (by decide +kernel))
  have hL : Drains .utf8 none [0x62, 2, 0, 7] [.ok (.PubRel {
      pkid := 7, reason := .Success, properties := none })] [] :=
    .step (b1 := []) (by decide +kernel) (by simp) (.stop (by decide +kernel))
  have hFT : Drains .utf8 none ([0x34, 7, 0, 1, 97, 0, 7, 0, 1] ++ [0x3C, 7, 0, 1, 97, 0, 7, 0, 1])
      [.ok (.Publish {
      dup := false, qos := .ExactlyOnce, retain := false, topic := [97], pkid := 7, payload := [1]
      properties := none }), .ok (.Publish {
      dup := true, qos := .ExactlyOnce, retain := false, topic := [97], pkid := 7, payload := [1]
      properties := none })] [] :=
    .step (b1 := [0x3C, 7, 0, 1, 97, 0, 7, 0, 1]) (by decide +kernel) (by simp) hT
  have hFTL : Drains .utf8 none ([0x34, 7, 0, 1, 97, 0, 7, 0, 1] ++ [0x3C, 7, 0, 1, 97, 0, 7, 0, 1] ++ [0x62, 2, 0, 7])
      [.ok (.Publish {
      dup := false, qos := .ExactlyOnce, retain := false, topic := [97], pkid := 7, payload := [1]
      properties := none }), .ok (.Publish {
      dup := true, qos := .ExactlyOnce, retain := false, topic := [97], pkid := 7, payload := [1]
      properties := none }),
       .ok (.PubRel { pkid := 7, reason := .Success, properties := none })] [] :=
    .step (b1 := [0x3C, 7, 0, 1, 97, 0, 7, 0, 1] ++ [0x62, 2, 0, 7]) (by decide +kernel) (by simp)
      (.step (b1 := [0x62, 2, 0, 7]) (by decide +kernel) (by simp) hL)
  have wF : WriteAll [.Publish {
      dup := false, qos := .ExactlyOnce, retain := false, topic := [97], pkid := 7, payload := [1]
      properties := none }] [] [0x34, 7, 0, 1, 97, 0, 7, 0, 1] :=
    .cons (n := 9) (b1 := [0x34, 7, 0, 1, 97, 0, 7, 0, 1]) (by decide +kernel) (.nil _)
  have wT : WriteAll [.Publish {
      dup := true, qos := .ExactlyOnce, retain := false, topic := [97], pkid := 7, payload := [1]
      properties := none }] [] [0x3C, 7, 0, 1, 97, 0, 7, 0, 1] :=
    .cons (n := 9) (b1 := [0x3C, 7, 0, 1, 97, 0, 7, 0, 1]) (by decide +kernel) (.nil _)
  have h0 : Journals .utf8 none (some 2) [{
      dup := false, qos := .ExactlyOnce, retain := false, topic := [97], pkid := 7, payload := [1]
      properties := none }] { pending := [({
      dup := false, qos := .ExactlyOnce, retain := false, topic := [97], pkid := 7, payload := [1]
      properties := none }, false)], file := [] } :=
    .submit (all := []) .start rfl rfl (by simp) ⟨9, [0x34, 7, 0, 1, 97, 0, 7, 0, 1], by decide +kernel, by decide +kernel⟩
  have h1 : Journals .utf8 none (some 2) [{
      dup := false, qos := .ExactlyOnce, retain := false, topic := [97], pkid := 7, payload := [1]
      properties := none }] { pending := [({
      dup := false, qos := .ExactlyOnce, retain := false, topic := [97], pkid := 7, payload := [1]
      properties := none }, false)], file := [] } :=
    .crash (dup := fun _ => false) (k := 9) (l := 5) (os' := []) (rest := [0x34, 7, 0, 1, 97]) h0 wF
      (by simp) hF wF (by simp) (by simp) (.stop (by decide +kernel))
  have h2 : Journals .utf8 none (some 2) [{
      dup := false, qos := .ExactlyOnce, retain := false, topic := [97], pkid := 7, payload := [1]
      properties := none }] { pending := [({
      dup := false, qos := .ExactlyOnce, retain := false, topic := [97], pkid := 7, payload := [1]
      properties := none }, false)], file := [0x34, 7, 0, 1, 97, 0, 7, 0, 1] } :=
    .crash (dup := fun _ => false) (k := 9) (l := 9) (rest := []) h1 wF
      (by simp) hF wF (by simp) (by simp) hF
  have h3 : Journals .utf8 none (some 2) [{
      dup := false, qos := .ExactlyOnce, retain := false, topic := [97], pkid := 7, payload := [1]
      properties := none }] {
      pending := settle [({
      dup := false, qos := .ExactlyOnce, retain := false, topic := [97], pkid := 7, payload := [1]
      properties := none }, false)] [.ok (.PubRec { pkid := 7, reason := .Success, properties := none })],
      file := [0x34, 7, 0, 1, 97, 0, 7, 0, 1] ++ [0x3C, 7, 0, 1, 97, 0, 7, 0, 1] } :=
    .round (dup := fun _ => true) (k := 9) (a := [0x50, 2, 0, 7]) (j := 4) (torn' := []) h2 hF wT
      (by simp) hT (.cons (n := 9) (by decide +kernel) (.nil _))
      (.cons (n := 4) (b1 := [0x50, 2, 0, 7]) (by decide +kernel) (.nil _)) (by simp)
      (.step (b1 := []) (by decide +kernel) (by simp) (.stop (by decide +kernel)))
  have h4 : Journals .utf8 none (some 2) [{
      dup := false, qos := .ExactlyOnce, retain := false, topic := [97], pkid := 7, payload := [1]
      properties := none }] {
      pending := settle [({
      dup := false, qos := .ExactlyOnce, retain := false, topic := [97], pkid := 7, payload := [1]
      properties := none }, true)] [.ok (.PubComp { pkid := 7, reason := .Success, properties := none })],
      file := [0x34, 7, 0, 1, 97, 0, 7, 0, 1] ++ [0x3C, 7, 0, 1, 97, 0, 7, 0, 1] ++ [0x62, 2, 0, 7] } :=
    .round (dup := fun _ => true) (b := [0x62, 2, 0, 7]) (k := 4) (a := [0x70, 2, 0, 7]) (j := 4)
      (torn' := []) h3 hFT
      (.cons (n := 4) (b1 := [0x62, 2, 0, 7]) (by decide +kernel) (.nil _)) (by simp) hL
      (.cons (n := 4) (by decide +kernel) (.nil _))
      (.cons (n := 4) (b1 := [0x70, 2, 0, 7]) (by decide +kernel) (.nil _)) (by simp)
      (.step (b1 := []) (by decide +kernel) (by simp) (.stop (by decide +kernel)))
  exact ⟨_, _, h4, by simp [settle], rfl, hFTL, by simp [handle]⟩

end Props
