import Verif.Spec.Exchange
import Verif.Props.Journal
/-
C88: QoS 2 messages when sender and receiver crash.
-/
namespace Props

open Mqtt Spec

theorem settle_cons (pending : List (Publish × Bool)) (o : Out Packet) (os : List (Out Packet)) :
    settle pending (o :: os) = settle (settle pending [o]) os := by
  cases o with
  | ok p => cases p <;> rfl
  | _ => rfl

theorem recall_append (pending : List (Publish × Bool)) (os os' : List (Out Packet)) :
    recall pending (os ++ os') = recall (recall pending os) os' := by
  induction os generalizing pending with
  | nil => rfl
  | cons o os ih =>
    cases o with
    | ok p => cases p <;> exact ih _
    | _ => exact ih _

theorem recall_answers (pending : List (Publish × Bool)) (l : List (Publish × Bool)) :
    recall pending (l.map fun x => .ok (answer x)) = settle pending (l.map fun x => .ok (answer x)) := by
  induction l generalizing pending with
  | nil => rfl
  | cons x l ih =>
    rw [List.map_cons, settle_cons]
    rcases x with ⟨p, _ | _⟩ <;> exact ih _

theorem answer_noted (mode : StrMode) (x : Publish × Bool) : Noted mode (answer x) := by
  rcases x with ⟨p, _ | _⟩
  · exact ⟨id, rec_survives mode none (by simp [Admits]) p.pkid, rfl⟩
  · exact ⟨id, comp_survives mode none (by simp [Admits]) p.pkid, rfl⟩

theorem settled_answers (l : List (Publish × Bool)) :
    (l.map fun x => Out.ok (answer x)).filterMap settled = l.map answer := by
  refine filterMap_map_some fun x _ => ?_
  rcases x with ⟨p, _ | _⟩ <;> rfl

/-- What holds at all times. -/
structure ExchangeInv (mode : StrMode) (max max' : Option Nat) (all : List Publish) (s : Ends)
    (xs : List Packet) : Prop where
  written : WriteAll xs [] s.sender
  entries : ∀ x ∈ xs, Noted mode x
  journals : Journals mode max max' all { pending := recall [] (xs.map .ok), file := s.receiver }

theorem publish_noted {mode : StrMode} {max : Option Nat} {m : Publish} {n : Nat} {w : Bytes}
    (h1 : norm (.Publish m) = .Publish m) (h2 : (Packet.Publish m).write [] = (.ok n, w))
    (h3 : Packet.read mode max w = (.ok (.Publish m), [])) : Noted mode (.Publish m) := by
  obtain ⟨b1, v, bd, e1, e2, e3, e4, e5⟩ := read_ok_iff.1 h3
  exact ⟨id, ⟨n, w, h2, by
    rw [h1]; exact read_ok_iff.2 ⟨b1, v, bd, e1, e2, by simp [OverLimit], e4, e5⟩⟩, h1⟩

/-- The answers that the sender reads in a round. -/
theorem exchange_wire {mode : StrMode} {max max' : Option Nat} (hm : Admits max 2) (hm' : Admits max' 2)
    {all : List Publish} {s : Journal} (h : Journals mode max max' all s)
    {dup : Publish → Bool} {b a torn torn' : Bytes} {os2 os os' : List (Out Packet)} {k j : Nat}
    (h1 : WriteAll (s.pending.map (toSend dup)) [] b) (h2 : k ≤ b.length)
    (h3 : Drains mode max (b.take k) os torn)
    (h4 : WriteAll (handle (handle [] os2).1 os).2.2 [] a) (h5 : j ≤ a.length)
    (h6 : Drains mode max' (a.take j) os' torn') :
    ∃ i, i ≤ s.pending.length ∧
      (∀ n, n ≤ s.pending.length → ∀ c, WriteAll ((s.pending.take n).map (toSend dup)) [] c →
        (c.length ≤ k ↔ n ≤ i)) ∧
      os' = (s.pending.take (min i (j / 4))).map (fun x => .ok (answer x)) := by
  obtain ⟨xs, hi⟩ := journals_inv hm hm' h
  obtain ⟨hd, hp⟩ := rounds_pending hm hm' hi.rounds
  obtain ⟨i, g1, g2, -, g3, -⟩ := round_wire hm hm' hd hp h1 h2 h3 h4 h5 h6
  exact ⟨i, g1, g2, g3⟩

/-- A round of which only the first `t` answers count. -/
theorem fewer_answers {mode : StrMode} {max max' : Option Nat} (hm : Admits max 2) (hm' : Admits max' 2)
    {all : List Publish} {s : Journal} (h : Journals mode max max' all s)
    {dup : Publish → Bool} {b a torn torn' file : Bytes} {os2 os os' : List (Out Packet)} {k j : Nat}
    (h0 : Drains mode none s.file os2 [])
    (h1 : WriteAll (s.pending.map (toSend dup)) [] b) (h2 : k ≤ b.length)
    (h3 : Drains mode max (b.take k) os torn) (h3' : WriteAll (os.filterMap noted) s.file file)
    (h4 : WriteAll (handle (handle [] os2).1 os).2.2 [] a) (h5 : j ≤ a.length)
    (h6 : Drains mode max' (a.take j) os' torn') (t : Nat) (ht : t ≤ os'.length) :
    Journals mode max max' all { pending := settle s.pending (os'.take t), file := file } := by
  obtain ⟨xs, hi⟩ := journals_inv hm hm' h
  obtain ⟨hd, hp⟩ := rounds_pending hm hm' hi.rounds
  obtain ⟨i, g1, g2, g3, g4, -⟩ := round_wire hm hm' hd hp h1 h2 h3 h4 h5 h6
  have hl : os'.length = min s.pending.length (min i (j / 4)) := by
    rw [g4, List.length_map, List.length_take]; simp only [asOnce]; omega
  obtain ⟨os3, torn3, h7⟩ := drains_total mode max' (a.take (4 * t))
  obtain ⟨i', f1, f2, f3, f4, -⟩ := round_wire hm hm' hd hp h1 h2 h3 h4 (by omega : 4 * t ≤ a.length) h7
  simp only [asOnce] at g1 f1
  have hii : i = i' := by
    have e1 := congrArg List.length g3
    have e2 := congrArg List.length f3
    simp only [asOnce, List.length_map, List.length_take] at e1 e2
    omega
  subst hii
  have hos : os3 = os'.take t := by
    rw [f4, g4, ← List.map_take, List.take_take]
    rw [show min i (4 * t / 4) = min t (min i (j / 4)) by omega]
  rw [← hos]
  exact .round h h0 h1 h2 h3 h3' h4 (by omega) h7

theorem exchange_round {mode : StrMode} {max max' : Option Nat} (hm : Admits max 2) (hm' : Admits max' 2)
    {all : List Publish} {s : Ends} {xs : List Packet} (hi : ExchangeInv mode max max' all s xs)
    {dup : Publish → Bool} {b a torn torn' sender receiver : Bytes} {os1 os2 os os' : List (Out Packet)}
    {k j : Nat} (h0 : Drains mode none s.sender os1 []) (h1 : Drains mode none s.receiver os2 [])
    (h2 : WriteAll ((recall [] os1).map (toSend dup)) [] b) (h3 : k ≤ b.length)
    (h4 : Drains mode max (b.take k) os torn) (h5 : WriteAll (os.filterMap noted) s.receiver receiver)
    (h6 : WriteAll (handle (handle [] os2).1 os).2.2 [] a) (h7 : j ≤ a.length)
    (h8 : Drains mode max' (a.take j) os' torn') (h9 : WriteAll (os'.filterMap settled) s.sender sender) :
    ∃ ys, ExchangeInv mode max max' all { sender := sender, receiver := receiver } ys ∧
      recall [] (ys.map .ok) = settle (recall [] os1) os' := by
  obtain ⟨rfl, -⟩ := journal_reads_all hi.written hi.entries h0
  obtain ⟨i, -, -, e⟩ := exchange_wire hm hm' hi.journals h2 h3 h4 h6 h7 h8
  have hJ := Journals.round hi.journals h1 h2 h3 h4 h5 h6 h7 h8
  simp only at hJ e
  generalize hP : recall [] (xs.map .ok) = P at *
  subst e
  rw [settled_answers] at h9
  have hr : recall [] ((xs ++ (P.take (min i (j / 4))).map answer).map .ok) =
      settle P ((P.take (min i (j / 4))).map fun x => .ok (answer x)) := by
    rw [List.map_append, recall_append, hP, List.map_map,
      show (Out.ok ∘ answer) = fun x => Out.ok (answer x) from rfl, recall_answers]
  refine ⟨xs ++ (P.take (min i (j / 4))).map answer,
    ⟨journal_writeAll_append hi.written h9, ?_, ?_⟩, hr⟩
  · intro x hx
    rcases List.mem_append.1 hx with hx | hx
    · exact hi.entries x hx
    · obtain ⟨y, -, rfl⟩ := List.mem_map.1 hx
      exact answer_noted mode y
  · rw [hr]; exact hJ

theorem exchanges_inv {mode : StrMode} {max max' : Option Nat} (hm : Admits max 2) (hm' : Admits max' 2)
    {all : List Publish} {s : Ends} (h : Exchanges mode max max' all s) :
    ∃ xs, ExchangeInv mode max max' all s xs := by
  induction h with
  | start => exact ⟨[], .nil _, by simp, .start⟩
  | @submit all s m n n' w file os _ h0 h1 h2 h3 h4 h5 h6 ih =>
    obtain ⟨xs, hi⟩ := ih
    obtain ⟨rfl, -⟩ := journal_reads_all hi.written hi.entries h0
    refine ⟨xs ++ [.Publish m], journal_writeAll_append hi.written (.cons h6 (.nil _)), ?_, ?_⟩
    · intro x hx
      rcases List.mem_append.1 hx with hx | hx
      · exact hi.entries x hx
      · obtain rfl := List.mem_singleton.1 hx
        exact publish_noted h3 h4 h5
    · rw [List.map_append, recall_append]
      exact .submit hi.journals h2 h3 h1 ⟨n, w, h4, h5⟩
  | @submitCrash all s m n n' l w file rest os _ h2 h3 h4 h5 h6 h7 h8 h9 ih =>
    obtain ⟨xs, hi⟩ := ih
    have hw := journal_writeAll_append hi.written (WriteAll.cons h6 (.nil _))
    have hx : ∀ x ∈ xs ++ [Packet.Publish m], Noted mode x := by
      intro x hx
      rcases List.mem_append.1 hx with hx | hx
      · exact hi.entries x hx
      · obtain rfl := List.mem_singleton.1 hx
        exact publish_noted h3 h4 h5
    obtain ⟨q, f1, -, f3, -, f5⟩ := journal_reads hw hx (Nat.le_of_lt h8) h9
    have hq1 := (f5 xs.length (by simp) s.sender (by rw [List.take_left' rfl]; exact hi.written)).1 h7
    have hq2 : q ≠ xs.length + 1 := fun e => by
      have := (f5 (xs.length + 1) (by simp) file (by
        rw [List.take_of_length_le (by simp)]; exact hw)).2 (by omega)
      omega
    rw [List.length_append, List.length_singleton] at f1
    rw [show q = xs.length by omega, List.take_left' rfl] at f3
    exact ⟨xs, f3, hi.entries, hi.journals⟩
  | round _ h0 h1 h2 h3 h4 h5 h6 h7 h8 h9 ih =>
    obtain ⟨xs, hi⟩ := ih
    obtain ⟨ys, h, -⟩ := exchange_round hm hm' hi h0 h1 h2 h3 h4 h5 h6 h7 h8 h9
    exact ⟨ys, h⟩
  | receiverCrash _ h0 h1 h2 h3 h4 h5 h6 h7 ih =>
    obtain ⟨xs, hi⟩ := ih
    obtain ⟨rfl, -⟩ := journal_reads_all hi.written hi.entries h0
    exact ⟨xs, hi.written, hi.entries, .crash hi.journals h1 h2 h3 h4 h5 h6 h7⟩
  | @senderCrash all s dup b a torn torn' rest sender receiver os1 os2 os os' os3 k j l _ h0 h1 h2 h3 h4 h5
      h6 h7 h8 h9 g1 g2 g3 ih =>
    obtain ⟨xs, hi⟩ := ih
    obtain ⟨rfl, -⟩ := journal_reads_all hi.written hi.entries h0
    obtain ⟨i, e0, -, e⟩ := exchange_wire hm hm' hi.journals h2 h3 h4 h6 h7 h8
    have hJ := fewer_answers hm hm' hi.journals h1 h2 h3 h4 h5 h6 h7 h8
    simp only at hJ e e0
    generalize hP : recall [] (xs.map .ok) = P at *
    subst e
    rw [settled_answers] at h9
    have hw := journal_writeAll_append hi.written h9
    have hx : ∀ x ∈ xs ++ (P.take (min i (j / 4))).map answer, Noted mode x := by
      intro x hx
      rcases List.mem_append.1 hx with hx | hx
      · exact hi.entries x hx
      · obtain ⟨y, -, rfl⟩ := List.mem_map.1 hx
        exact answer_noted mode y
    obtain ⟨q, f1, -, f3, -, f5⟩ := journal_reads hw hx g2 g3
    have hq1 := (f5 xs.length (by simp) s.sender (by rw [List.take_left' rfl]; exact hi.written)).1 g1
    rw [List.length_append, List.length_map] at f1
    have hJ' := hJ (q - xs.length) (by rw [List.length_map]; omega)
    rw [List.take_append, List.take_of_length_le hq1] at f3
    refine ⟨_, f3, ?_, ?_⟩
    · intro x hx'
      exact (List.mem_append.1 hx').elim (hi.entries x)
        fun h => hx x (List.mem_append_right _ (List.mem_of_mem_take h))
    · rw [List.map_append, recall_append, hP, ← List.map_take, List.map_map,
        show (Out.ok ∘ answer) = fun x => Out.ok (answer x) from rfl, recall_answers]
      rw [← List.map_take] at hJ'
      exact hJ'

/-- C88: both files read without an error and to their last byte at all times; and what the sender and the
receiver have, if the files are taken for their memories, is what they could have had without any crash
(C85). -/
theorem C88_files (mode : StrMode) (max max' : Option Nat) (hm : Admits max 2) (hm' : Admits max' 2)
    (all : List Publish) (s : Ends) (h : Exchanges mode max max' all s) :
    ∃ ps ns : List Packet, Drains mode none s.sender (ps.map .ok) [] ∧
      Drains mode none s.receiver (ns.map .ok) [] ∧
      Rounds mode max max' all {
        pending := recall [] (ps.map .ok)
        seen := (handle [] (ns.map .ok)).1
        received := (handle [] (ns.map .ok)).2.1 } := by
  obtain ⟨xs, hi⟩ := exchanges_inv hm hm' h
  obtain ⟨os, torn, hd⟩ := drains_total mode none s.sender
  obtain ⟨rfl, rfl⟩ := journal_reads_all hi.written hi.entries hd
  obtain ⟨ns, h1, h2⟩ := C87_file mode max max' hm hm' all _ hi.journals
  exact ⟨xs, ns, hd, h1, h2⟩

/-- C88: exactly once. The messages that the receiver has passed on, by its file, are the first ones handed
over, each once and in order, up to the DUP flag; and those that the sender has completed, by its file, are
among them. -/
theorem C88_once (mode : StrMode) (max max' : Option Nat) (hm : Admits max 2) (hm' : Admits max' 2)
    (all : List Publish) (s : Ends) (h : Exchanges mode max max' all s)
    (os os' : List (Out Packet)) (rest rest' : Bytes) (hd : Drains mode none s.sender os rest)
    (hd' : Drains mode none s.receiver os' rest') :
    ∃ (done : List Publish) (ds : List (Publish × Bool)), all = done ++ (recall [] os).map (·.1) ∧
      (handle [] os').2.1 = ds.map (fun x => arrival x.1 x.2) ∧
      done <+: ds.map (·.1) ∧ ds.map (·.1) <+: all := by
  obtain ⟨ps, ns, h1, h2, h3⟩ := C88_files mode max max' hm hm' all s h
  obtain ⟨rfl, rfl⟩ := drains_det hd h1
  obtain ⟨rfl, rfl⟩ := drains_det hd' h2
  exact C85_once mode max max' hm hm' all _ h3

/-- A round that does not break can always follow. -/
theorem exchange_full {mode : StrMode} {max max' : Option Nat} (hm : Admits max 2) (hm' : Admits max' 2)
    {all : List Publish} {s : Ends} (h : Exchanges mode max max' all s) {xs ys : List Packet}
    (hi : ExchangeInv mode max max' all s xs)
    (hj : JournalInv mode max max' all { pending := recall [] (xs.map .ok), file := s.receiver } ys)
    {done R K F : List Publish} {ds : List (Publish × Bool)}
    (hI : OnceInv mode max all (asOnce (recall [] (xs.map .ok)) (ys.map .ok)) done R K F ds) :
    ∃ s' xs' ys' done' R' ds', Exchanges mode max max' all s' ∧ ExchangeInv mode max max' all s' xs' ∧
      JournalInv mode max max' all { pending := recall [] (xs'.map .ok), file := s'.receiver } ys' ∧
      OnceInv mode max all (asOnce (recall [] (xs'.map .ok)) (ys'.map .ok)) done' R' [] [] ds' ∧
      (K = [] → F = [] → R' = []) ∧ s.sender <+: s'.sender ∧ s.receiver <+: s'.receiver := by
  obtain ⟨b, a, torn, torn', os, os', hb, hos, ha, hos', done', R', ds', hI', h0⟩ := full_data hm hm' hI
  obtain ⟨os1, torn1, hd1⟩ := drains_total mode none s.sender
  obtain ⟨rfl, rfl⟩ := journal_reads_all hi.written hi.entries hd1
  obtain ⟨os2, torn2, hd2⟩ := drains_total mode none s.receiver
  obtain ⟨rfl, rfl⟩ := journal_reads_all hj.written hj.entries hd2
  obtain ⟨i, -, -, -, e2, e3, e4⟩ := journal_wire hm hm' hj hb (Nat.le_refl _) hos
  obtain ⟨receiver, hf⟩ := writeAll_total (ps := os.filterMap noted) (by
    intro p hp
    rw [e3] at hp
    obtain ⟨n, w, hw, -⟩ := (e4 p hp).2.1
    exact encodable_of_ok hw) s.receiver
  simp only [asOnce] at ha hb
  obtain ⟨i', -, -, e5⟩ := exchange_wire hm hm' hi.journals hb (Nat.le_refl _) hos ha (Nat.le_refl _) hos'
  have e6 := settled_answers ((recall [] (xs.map .ok)).take (min i' (a.length / 4)))
  rw [← e5] at e6
  have e7 : ∀ p ∈ os'.filterMap settled, Noted mode p := by
    intro p hp
    rw [e6] at hp
    obtain ⟨y, -, rfl⟩ := List.mem_map.1 hp
    exact answer_noted mode y
  obtain ⟨sender, hf'⟩ := writeAll_total (ps := os'.filterMap settled) (fun p hp => by
    obtain ⟨n, w, hw, -⟩ := (e7 p hp).2.1
    exact encodable_of_ok hw) s.sender
  obtain ⟨xs', hi', e8⟩ := exchange_round hm hm' hi hd1 hd2 hb (Nat.le_refl _) hos hf ha (Nat.le_refl _)
    hos' hf'
  obtain ⟨zs, e9, hj'⟩ := journal_round hm hm' hj hd2 hb (Nat.le_refl _) hos hf ha (Nat.le_refl _) hos'
  refine ⟨_, xs', ys ++ zs, done', R', ds',
    .round h hd1 hd2 hb (Nat.le_refl _) hos hf ha (Nat.le_refl _) hos' hf', hi', ?_, ?_, h0, ?_, ?_⟩
  · rw [e8]; exact hj'
  · simp only [asOnce]
    simp only [asOnce] at hI'
    rw [e8, List.map_append, ← e9, (handle_append _ _ _).1, (handle_append _ _ _).2]
    exact hI'
  · obtain ⟨ws, -, rfl, -⟩ := writeAll_parts hf' (fun p hp => (e7 p hp).1)
    exact List.prefix_append _ _
  · obtain ⟨ws, -, rfl, -⟩ := writeAll_parts hf (by
      rw [e3]; exact fun p hp => (e4 p hp).1)
    exact List.prefix_append _ _

/-- C88: two rounds that do not break are always possible, and complete every message: by its file, the
receiver then has passed on each of them, once and in order, and remembers nothing. -/
theorem C88_done (mode : StrMode) (max max' : Option Nat) (hm : Admits max 2) (hm' : Admits max' 2)
    (all : List Publish) (s : Ends) (h : Exchanges mode max max' all s) :
    ∃ s' os os', Exchanges mode max max' all s' ∧ s.sender <+: s'.sender ∧ s.receiver <+: s'.receiver ∧
      Drains mode none s'.sender os [] ∧ recall [] os = [] ∧
      Drains mode none s'.receiver os' [] ∧ (handle [] os').1 = [] ∧
      ∃ ds : List (Publish × Bool), ds.map (·.1) = all ∧
        (handle [] os').2.1 = ds.map fun x => arrival x.1 x.2 := by
  obtain ⟨xs, hi⟩ := exchanges_inv hm hm' h
  obtain ⟨ys, hj⟩ := journals_inv hm hm' hi.journals
  obtain ⟨done, R, K, F, ds, hI⟩ := rounds_inv hm hm' hj.rounds
  obtain ⟨s1, xs1, ys1, done1, R1, ds1, h1, hi1, hj1, hI1, -, g1, g1'⟩ := exchange_full hm hm' h hi hj hI
  obtain ⟨s2, xs2, ys2, done2, R2, ds2, h2, hi2, hj2, hI2, h0, g2, g2'⟩ :=
    exchange_full hm hm' h1 hi1 hj1 hI1
  obtain rfl := h0 rfl rfl
  obtain ⟨os1, torn1, hd1⟩ := drains_total mode none s2.sender
  obtain ⟨rfl, rfl⟩ := journal_reads_all hi2.written hi2.entries hd1
  obtain ⟨os2, torn2, hd2⟩ := drains_total mode none s2.receiver
  obtain ⟨rfl, rfl⟩ := journal_reads_all hj2.written hj2.entries hd2
  refine ⟨s2, _, _, h2, g1.trans g2, g1'.trans g2', hd1, hI2.pending, hd2, ?_, ds2, ?_, hI2.got⟩
  · refine List.eq_nil_iff_forall_not_mem.2 fun k hk => ?_
    obtain ⟨p, hp, -⟩ := hI2.seen.2 k hk
    simp at hp
  · rw [hI2.ds_eq, hI2.all_eq]; rfl

/-- The hypotheses are met: handing over a message fails as the sender crashes, and then succeeds; in the
first round the sender crashes and the PUBREC is cut from its file; in the second the receiver crashes and the
second PUBLISH is cut from its file; two more rounds complete the message. By the file it has been passed on
once. -/
example (m : Publish) (e : m = {
      dup := false, qos := .ExactlyOnce, retain := false, topic := [97], pkid := 7, payload := [1]
      properties := none }) :
    ∃ s os os', Exchanges .utf8 none (some 2) [m] s ∧
      s.sender = [0x34, 7, 0, 1, 97, 0, 7, 0, 1, 0x50, 2, 0, 7, 0x70, 2, 0, 7] ∧
      s.receiver = [0x34, 7, 0, 1, 97, 0, 7, 0, 1, 0x3C, 7, 0, 1, 97, 0, 7, 0, 1, 0x62, 2, 0, 7] ∧
      Drains .utf8 none s.sender os [] ∧ recall [] os = [] ∧
      Drains .utf8 none s.receiver os' [] ∧ (handle [] os').2.1 = [m] := by
  subst e
  have hN : Drains .utf8 none [] [] [] := .stop (by decide +kernel)
  have hF : Drains .utf8 none [0x34, 7, 0, 1, 97, 0, 7, 0, 1] [.ok (.Publish {
      dup := false, qos := .ExactlyOnce, retain := false, topic := [97], pkid := 7, payload := [1]
      properties := none })] [] :=
    .step (b1 := []) (by decide +kernel) (by simp) hN
  have hT : Drains .utf8 none [0x3C, 7, 0, 1, 97, 0, 7, 0, 1] [.ok (.Publish {
      dup := true, qos := .ExactlyOnce, retain := false, topic := [97], pkid := 7, payload := [1]
      properties := none })] [] :=
    .step (b1 := []) (by decide +kernel) (by simp) hN
  have hL : Drains .utf8 none [0x62, 2, 0, 7] [.ok (.PubRel {
      pkid := 7, reason := .Success, properties := none })] [] :=
    .step (b1 := []) (by decide +kernel) (by simp) hN
  have hR : Drains .utf8 none [0x50, 2, 0, 7] [.ok (.PubRec {
      pkid := 7, reason := .Success, properties := none })] [] :=
    .step (b1 := []) (by decide +kernel) (by simp) hN
  have hR' : Drains .utf8 (some 2) [0x50, 2, 0, 7] [.ok (.PubRec {
      pkid := 7, reason := .Success, properties := none })] [] :=
    .step (b1 := []) (by decide +kernel) (by simp) (.stop (by decide +kernel))
  have hC : Drains .utf8 none [0x70, 2, 0, 7] [.ok (.PubComp {
      pkid := 7, reason := .Success, properties := none })] [] :=
    .step (b1 := []) (by decide +kernel) (by simp) hN
  have hC' : Drains .utf8 (some 2) [0x70, 2, 0, 7] [.ok (.PubComp {
      pkid := 7, reason := .Success, properties := none })] [] :=
    .step (b1 := []) (by decide +kernel) (by simp) (.stop (by decide +kernel))
  have hFT : Drains .utf8 none ([0x34, 7, 0, 1, 97, 0, 7, 0, 1] ++ [0x3C, 7, 0, 1, 97, 0, 7, 0, 1]) [.ok (.Publish {
      dup := false, qos := .ExactlyOnce, retain := false, topic := [97], pkid := 7, payload := [1]
      properties := none }), .ok (.Publish {
      dup := true, qos := .ExactlyOnce, retain := false, topic := [97], pkid := 7, payload := [1]
      properties := none })] [] :=
    .step (b1 := [0x3C, 7, 0, 1, 97, 0, 7, 0, 1]) (by decide +kernel) (by simp) hT
  have hFTL : Drains .utf8 none ([0x34, 7, 0, 1, 97, 0, 7, 0, 1] ++ [0x3C, 7, 0, 1, 97, 0, 7, 0, 1] ++ [0x62, 2, 0, 7])
      [.ok (.Publish {
      dup := false, qos := .ExactlyOnce, retain := false, topic := [97], pkid := 7, payload := [1]
      properties := none }), .ok (.Publish {
      dup := true, qos := .ExactlyOnce, retain := false, topic := [97], pkid := 7, payload := [1]
      properties := none }), .ok (.PubRel {
      pkid := 7, reason := .Success, properties := none })] [] :=
    .step (b1 := [0x3C, 7, 0, 1, 97, 0, 7, 0, 1] ++ [0x62, 2, 0, 7]) (by decide +kernel) (by simp)
      (.step (b1 := [0x62, 2, 0, 7]) (by decide +kernel) (by simp) hL)
  have hFR : Drains .utf8 none ([0x34, 7, 0, 1, 97, 0, 7, 0, 1] ++ [0x50, 2, 0, 7]) [.ok (.Publish {
      dup := false, qos := .ExactlyOnce, retain := false, topic := [97], pkid := 7, payload := [1]
      properties := none }), .ok (.PubRec {
      pkid := 7, reason := .Success, properties := none })] [] :=
    .step (b1 := [0x50, 2, 0, 7]) (by decide +kernel) (by simp) hR
  have hFRC : Drains .utf8 none ([0x34, 7, 0, 1, 97, 0, 7, 0, 1] ++ [0x50, 2, 0, 7] ++ [0x70, 2, 0, 7])
      [.ok (.Publish {
      dup := false, qos := .ExactlyOnce, retain := false, topic := [97], pkid := 7, payload := [1]
      properties := none }), .ok (.PubRec {
      pkid := 7, reason := .Success, properties := none }), .ok (.PubComp {
      pkid := 7, reason := .Success, properties := none })] [] :=
    .step (b1 := [0x50, 2, 0, 7] ++ [0x70, 2, 0, 7]) (by decide +kernel) (by simp)
      (.step (b1 := [0x70, 2, 0, 7]) (by decide +kernel) (by simp) hC)
  have wF : WriteAll [.Publish {
      dup := false, qos := .ExactlyOnce, retain := false, topic := [97], pkid := 7, payload := [1]
      properties := none }] [] [0x34, 7, 0, 1, 97, 0, 7, 0, 1] :=
    .cons (n := 9) (b1 := [0x34, 7, 0, 1, 97, 0, 7, 0, 1]) (by decide +kernel) (.nil _)
  have wT : WriteAll [.Publish {
      dup := true, qos := .ExactlyOnce, retain := false, topic := [97], pkid := 7, payload := [1]
      properties := none }] [] [0x3C, 7, 0, 1, 97, 0, 7, 0, 1] :=
    .cons (n := 9) (b1 := [0x3C, 7, 0, 1, 97, 0, 7, 0, 1]) (by decide +kernel) (.nil _)
  have wR : WriteAll [.PubRec { pkid := 7, reason := .Success, properties := none }] []
      [0x50, 2, 0, 7] := .cons (n := 4) (b1 := [0x50, 2, 0, 7]) (by decide +kernel) (.nil _)
  have wC : WriteAll [.PubComp { pkid := 7, reason := .Success, properties := none }] []
      [0x70, 2, 0, 7] := .cons (n := 4) (b1 := [0x70, 2, 0, 7]) (by decide +kernel) (.nil _)
  have hX : Drains .utf8 none (List.take 11 ([0x34, 7, 0, 1, 97, 0, 7, 0, 1] ++ [0x50, 2, 0, 7] : Mqtt.Bytes)) [.ok (.Publish {
      dup := false, qos := .ExactlyOnce, retain := false, topic := [97], pkid := 7, payload := [1]
      properties := none })] [0x50, 2] :=
    .step (b1 := [0x50, 2]) (by decide +kernel) (by simp) (.stop (by decide +kernel))
  have hY : Drains .utf8 none (List.take 10 ([0x34, 7, 0, 1, 97, 0, 7, 0, 1] ++ [0x3C, 7, 0, 1, 97, 0, 7, 0, 1] : Mqtt.Bytes)) [.ok (.Publish {
      dup := false, qos := .ExactlyOnce, retain := false, topic := [97], pkid := 7, payload := [1]
      properties := none })] [0x3C] :=
    .step (b1 := [0x3C]) (by decide +kernel) (by simp) (.stop (by decide +kernel))
  have h0 : Exchanges .utf8 none (some 2) [] { sender := [], receiver := [] } :=
    .submitCrash (m := {
      dup := false, qos := .ExactlyOnce, retain := false, topic := [97], pkid := 7, payload := [1]
      properties := none }) (n := 9) (n' := 9) (w := [0x34, 7, 0, 1, 97, 0, 7, 0, 1]) (file := [0x34, 7, 0, 1, 97, 0, 7, 0, 1]) (l := 8)
      (rest := [0x34, 7, 0, 1, 97, 0, 7, 0]) (os := []) .start rfl rfl (by decide +kernel)
      (by decide +kernel) (by decide +kernel) (by simp) (by simp) (.stop (by decide +kernel))
  have h1 : Exchanges .utf8 none (some 2) [{
      dup := false, qos := .ExactlyOnce, retain := false, topic := [97], pkid := 7, payload := [1]
      properties := none }] { sender := [0x34, 7, 0, 1, 97, 0, 7, 0, 1], receiver := [] } :=
    .submit (all := []) (n := 9) (n' := 9) (w := [0x34, 7, 0, 1, 97, 0, 7, 0, 1]) (os := []) h0 hN (by simp [recall]) rfl rfl
      (by decide +kernel) (by decide +kernel) (by decide +kernel)
  have h2 : Exchanges .utf8 none (some 2) [{
      dup := false, qos := .ExactlyOnce, retain := false, topic := [97], pkid := 7, payload := [1]
      properties := none }] { sender := [0x34, 7, 0, 1, 97, 0, 7, 0, 1], receiver := [0x34, 7, 0, 1, 97, 0, 7, 0, 1] } :=
    .senderCrash (dup := fun _ => false) (k := 9) (j := 4) (torn := []) (torn' := []) (l := 11)
      (rest := [0x50, 2]) (a := [0x50, 2, 0, 7]) (sender := [0x34, 7, 0, 1, 97, 0, 7, 0, 1] ++ [0x50, 2, 0, 7]) h1 hF hN wF
      (by simp) hF wF wR (by simp) hR' (.cons (n := 4) (by decide +kernel) (.nil _)) (by simp) (by simp) hX
  have h3 : Exchanges .utf8 none (some 2) [{
      dup := false, qos := .ExactlyOnce, retain := false, topic := [97], pkid := 7, payload := [1]
      properties := none }] { sender := [0x34, 7, 0, 1, 97, 0, 7, 0, 1], receiver := [0x34, 7, 0, 1, 97, 0, 7, 0, 1] } :=
    .receiverCrash (dup := fun _ => true) (k := 9) (l := 10) (torn := []) (rest := [0x3C])
      (receiver := [0x34, 7, 0, 1, 97, 0, 7, 0, 1] ++ [0x3C, 7, 0, 1, 97, 0, 7, 0, 1]) h2 hF wT (by simp) hT (.cons (n := 9) (by decide +kernel) (.nil _))
      (by simp) (by simp) hY
  have h4 : Exchanges .utf8 none (some 2) [{
      dup := false, qos := .ExactlyOnce, retain := false, topic := [97], pkid := 7, payload := [1]
      properties := none }] {
      sender := [0x34, 7, 0, 1, 97, 0, 7, 0, 1] ++ [0x50, 2, 0, 7], receiver := [0x34, 7, 0, 1, 97, 0, 7, 0, 1] ++ [0x3C, 7, 0, 1, 97, 0, 7, 0, 1] } :=
    .round (dup := fun _ => true) (k := 9) (j := 4) (torn := []) (torn' := []) (a := [0x50, 2, 0, 7])
      h3 hF hF wT (by simp) hT (.cons (n := 9) (by decide +kernel) (.nil _)) wR (by simp) hR'
      (.cons (n := 4) (by decide +kernel) (.nil _))
  have h5 : Exchanges .utf8 none (some 2) [{
      dup := false, qos := .ExactlyOnce, retain := false, topic := [97], pkid := 7, payload := [1]
      properties := none }] {
      sender := [0x34, 7, 0, 1, 97, 0, 7, 0, 1] ++ [0x50, 2, 0, 7] ++ [0x70, 2, 0, 7]
      receiver := [0x34, 7, 0, 1, 97, 0, 7, 0, 1] ++ [0x3C, 7, 0, 1, 97, 0, 7, 0, 1] ++ [0x62, 2, 0, 7] } :=
    .round (dup := fun _ => true) (k := 4) (j := 4) (torn := []) (torn' := []) (a := [0x70, 2, 0, 7])
      (b := [0x62, 2, 0, 7]) h4 hFR hFT (.cons (n := 4) (by decide +kernel) (.nil _)) (by simp) hL
      (.cons (n := 4) (by decide +kernel) (.nil _)) wC (by simp) hC'
      (.cons (n := 4) (by decide +kernel) (.nil _))
  exact ⟨_, _, _, h5, rfl, rfl, hFRC, by simp [recall, settle], hFTL, by simp [handle]⟩

end Props
