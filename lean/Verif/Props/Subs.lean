import Verif.Spec.Subs
import Verif.Props.Reply
import Verif.Props.RoundTrip
/-
C79: subscriptions are split, combined and undone.
-/
namespace Props

open Mqtt Spec

theorem filterSize_sublist {k : Nat} {l l' : List Bytes} (h : l.Sublist l') :
    filterSize k l ≤ filterSize k l' := by
  induction h with
  | slnil => exact Nat.le_refl _
  | cons a _ ih => simp only [filterSize, List.map_cons, List.sum_cons] at *; omega
  | cons_cons a _ ih => simp only [filterSize, List.map_cons, List.sum_cons] at *; omega

theorem filterSize_mono {j k : Nat} (h : j ≤ k) (l : List Bytes) :
    filterSize j l ≤ filterSize k l := by
  induction l with
  | nil => exact Nat.le_refl _
  | cons a l ih => simp only [filterSize, List.map_cons, List.sum_cons] at *; omega

theorem filterBytes_length (l : List Filter) :
    (l.flatMap filterBytes).length = filterSize 3 (l.map (·.path)) := by
  induction l with
  | nil => rfl
  | cons a l ih =>
    simp only [List.flatMap_cons, List.length_append, filterBytes, str_length, List.length_cons,
      List.length_nil, ih, filterSize, List.map_cons, List.sum_cons]
    omega

theorem strs_length (l : List Bytes) : (l.flatMap str).length = filterSize 2 l := by
  induction l with
  | nil => rfl
  | cons a l ih =>
    simp only [List.flatMap_cons, List.length_append, str_length, ih, filterSize, List.map_cons,
      List.sum_cons]

theorem subscribe_length (id : UInt16) (fs : List Filter) :
    (body (subscribe id fs)).length = 3 + filterSize 3 (fs.map (·.path)) := by
  simp only [subscribe, body, optSection, propSection_nil, List.length_append, u16_length,
    filterBytes_length, List.length_cons, List.length_nil]

theorem unsubscribe_length (id : UInt16) (ts : List Bytes) :
    (body (unsubscribe id ts)).length = 3 + filterSize 2 ts := by
  simp only [unsubscribe, body, optSection, propSection_nil, List.length_append, u16_length,
    strs_length, List.length_cons, List.length_nil]

theorem subscribe_encodable {id : UInt16} {fs : List Filter}
    (h : ∀ f ∈ fs, f.path.length ≤ 65535) :
    Encodable (subscribe id fs) ↔ 3 + filterSize 3 (fs.map (·.path)) ≤ 268435455 := by
  rw [← subscribe_length id]
  constructor
  · intro h; exact h.2.2.1
  · intro hl
    refine ⟨?_, by simp [subscribe, props, optList], hl, trivial⟩
    simpa [subscribe, fields, texts] using h

theorem unsubscribe_encodable {id : UInt16} {ts : List Bytes} (h : ∀ t ∈ ts, t.length ≤ 65535) :
    Encodable (unsubscribe id ts) ↔ 3 + filterSize 2 ts ≤ 268435455 := by
  rw [← unsubscribe_length id]
  constructor
  · intro h; exact h.2.2.1
  · intro hl
    refine ⟨?_, by simp [unsubscribe, props, optList], hl, trivial⟩
    simpa [unsubscribe, fields, texts] using h

theorem filtersOf_text {mode : StrMode} {max : Option Nat} {b r : Bytes} {p : Packet}
    (h : Packet.read mode max b = (.ok p, r)) : ∀ t ∈ filtersOf p, TextField mode t := by
  obtain ⟨_, _, _, _, _, _, hf⟩ := read_facts h
  intro t ht
  have : t ∈ texts p := by cases p <;> first | exact ht | cases ht
  exact ⟨hf.fields t (List.mem_append_left _ this), hf.strings.1 t this⟩

theorem filterRep_room {mode : StrMode} {l : List Filter} {w : Bytes}
    (h : SeqRep (FilterRep mode) l w) : filterSize 3 (l.map (·.path)) ≤ w.length := by
  induction h with
  | nil => exact Nat.le_refl _
  | cons hr _ ih =>
    obtain ⟨-, o, -, rfl⟩ := hr
    simp only [List.length_append, str_length, filterSize, List.map_cons, List.sum_cons,
      List.length_cons, List.length_nil] at *
    omega

theorem strRep_room {mode : StrMode} {l : List Bytes} {w : Bytes}
    (h : SeqRep (fun f w => TextField mode f ∧ w = str f) l w) : filterSize 2 l ≤ w.length := by
  induction h with
  | nil => exact Nat.le_refl _
  | cons hr _ ih =>
    obtain ⟨-, rfl⟩ := hr
    simp only [List.length_append, str_length, filterSize, List.map_cons, List.sum_cons] at *
    omega

/-- The filters take at least this room in the frame. -/
theorem filters_room {mode : StrMode} {b1 : Nat} {bd : Bytes} {p : Packet}
    (h : BodyRep mode b1 bd p) :
    (∀ q, p = .Subscribe q → 3 + filterSize 3 (filtersOf p) ≤ bd.length) ∧
    (filtersOf p ≠ [] → 3 + filterSize 2 (filtersOf p) ≤ bd.length) := by
  cases p with
  | Subscribe q =>
    obtain ⟨-, ps, s, w, rfl, hs, -, hw⟩ := h
    have hp := propSec_pos hs
    have key := filterRep_room hw
    have h3 : 3 + filterSize 3 (q.filters.map (·.path)) ≤ (u16 q.pkid ++ s ++ w).length := by
      simp only [List.length_append, u16_length]; omega
    have := filterSize_mono (j := 2) (k := 3) (by omega) (q.filters.map (·.path))
    exact ⟨fun _ _ => h3, fun _ => by show 3 + filterSize 2 (q.filters.map (·.path)) ≤ _; omega⟩
  | Unsubscribe q =>
    refine ⟨fun _ h => (nomatch h), fun _ => ?_⟩
    obtain ⟨ps, s, w, rfl, hs, -, hw⟩ := h
    have hp := propSec_pos hs
    have key := strRep_room hw
    show 3 + filterSize 2 q.filters ≤ _
    simp only [List.length_append, u16_length]; omega
  | _ => exact ⟨fun _ h => (nomatch h), fun h => absurd rfl h⟩

/-- What is needed of the packets to write and to read them. -/
theorem subscribe_written {mode : StrMode} {id : UInt16} {fs : List Filter} (hne : fs ≠ [])
    (ht : ∀ f ∈ fs, TextField mode f.path)
    (hl : 3 + filterSize 3 (fs.map (·.path)) ≤ 268435455) (buf : Bytes) :
    ∃ w, (subscribe id fs).write buf = (.ok w.length, buf ++ w) ∧
      RemLen w (3 + filterSize 3 (fs.map (·.path))) ∧
      ∀ max r, Admits max (3 + filterSize 3 (fs.map (·.path))) →
        Packet.read mode max (w ++ r) = (.ok (subscribe id fs), r) := by
  have he := (subscribe_encodable (id := id) fun f hf => (ht f hf).1).2 hl
  have hb := subscribe_length id fs
  refine ⟨_, write_encode he trivial (by simp [subscribe, IsConnect]),
    ⟨_, _, body (subscribe id fs), rfl, varint_rep he.2.2.1, hb.symm⟩, fun max r ha => ?_⟩
  have hs : StringsOk mode (subscribe id fs) := by
    refine ⟨?_, by simp [subscribe, props, optList]⟩
    simpa [subscribe, texts] using fun f hf => (ht f hf).2
  exact read_encode he hs (show fs ≠ [] from hne) (by rwa [hb]) r

theorem unsubscribe_written {mode : StrMode} {id : UInt16} {ts : List Bytes}
    (ht : ∀ t ∈ ts, TextField mode t) (hl : 3 + filterSize 2 ts ≤ 268435455) (buf : Bytes) :
    ∃ w, (unsubscribe id ts).write buf = (.ok w.length, buf ++ w) ∧
      RemLen w (3 + filterSize 2 ts) ∧
      ∀ max r, Admits max (3 + filterSize 2 ts) →
        Packet.read mode max (w ++ r) = (.ok (unsubscribe id ts), r) := by
  have he := (unsubscribe_encodable (id := id) fun t h => (ht t h).1).2 hl
  have hb := unsubscribe_length id ts
  refine ⟨_, write_encode he trivial (by simp [unsubscribe, IsConnect]),
    ⟨_, _, body (unsubscribe id ts), rfl, varint_rep he.2.2.1, hb.symm⟩, fun max r ha => ?_⟩
  have hs : StringsOk mode (unsubscribe id ts) := by
    refine ⟨?_, by simp [unsubscribe, props, optList]⟩
    simpa [unsubscribe, texts] using fun t h => (ht t h).2
  exact read_encode he hs trivial (by rwa [hb]) r

/-- C79, splitting: of a SUBSCRIBE that was read under a limit `m`, any of the filters, in their
order and with any options, can be subscribed to: the SUBSCRIBE is written behind anything, its
remaining length is at most `m`, and it is read exactly. -/
theorem C79_split (mode : StrMode) (m : Nat) (b r : Bytes) (p : Subscribe)
    (h : Packet.read mode (some m) b = (.ok (.Subscribe p), r)) (id : UInt16) (fs : List Filter)
    (hne : fs ≠ []) (hsub : (fs.map (·.path)).Sublist (p.filters.map (·.path))) (buf : Bytes) :
    ∃ w n, (subscribe id fs).write buf = (.ok w.length, buf ++ w) ∧ RemLen w n ∧ n ≤ m ∧
      ∀ max r', Admits max n → Packet.read mode max (w ++ r') = (.ok (subscribe id fs), r') := by
  have ht := filtersOf_text h
  obtain ⟨b1, v, bd, rfl, hv, hm, -, hb⟩ := read_ok_iff.1 h
  have hk : bd.length ≤ m := Nat.not_lt.1 fun hlt => hm ⟨m, rfl, hlt⟩
  have hle : bd.length ≤ 268435455 := hv.le
  have h1 : 3 + filterSize 3 (p.filters.map (·.path)) ≤ bd.length := (filters_room hb).1 _ rfl
  have h2 := filterSize_sublist (k := 3) hsub
  obtain ⟨w, hw, hn, hr⟩ := subscribe_written (mode := mode) (id := id) hne
    (fun f hf => ht _ (hsub.mem (List.mem_map_of_mem hf))) (by omega) buf
  exact ⟨w, _, hw, hn, by omega, hr⟩

/-- C79, undoing: any of the filters of a SUBSCRIBE or UNSUBSCRIBE that was read under a limit `m`
can be unsubscribed from, with a remaining length of at most `m`. -/
theorem C79_undo (mode : StrMode) (m : Nat) (b r : Bytes) (p : Packet)
    (h : Packet.read mode (some m) b = (.ok p, r)) (id : UInt16) (ts : List Bytes)
    (hne : ts ≠ []) (hsub : ts.Sublist (filtersOf p)) (buf : Bytes) :
    ∃ w n, (unsubscribe id ts).write buf = (.ok w.length, buf ++ w) ∧ RemLen w n ∧ n ≤ m ∧
      ∀ max r', Admits max n → Packet.read mode max (w ++ r') = (.ok (unsubscribe id ts), r') := by
  have ht := filtersOf_text h
  obtain ⟨b1, v, bd, rfl, hv, hm, -, hb⟩ := read_ok_iff.1 h
  have hk : bd.length ≤ m := Nat.not_lt.1 fun hlt => hm ⟨m, rfl, hlt⟩
  have hle : bd.length ≤ 268435455 := hv.le
  have hne' : filtersOf p ≠ [] := by
    intro he; rw [he] at hsub; exact hne (List.sublist_nil.1 hsub)
  have h1 := (filters_room hb).2 hne'
  have h2 := filterSize_sublist (k := 2) hsub
  obtain ⟨w, hw, hn, hr⟩ := unsubscribe_written (mode := mode) (id := id)
    (fun t h => ht _ (hsub.mem h)) (by omega) buf
  exact ⟨w, _, hw, hn, by omega, hr⟩

/-- C79, combining: filters that were read at any time, in any SUBSCRIBE or UNSUBSCRIBE, can be put
into one SUBSCRIBE, with any options, if and only if they fit into a packet; and then it is read
exactly. -/
theorem C79_join (mode : StrMode) (id : UInt16) (fs : List Filter) (hne : fs ≠ [])
    (hf : ∀ f ∈ fs, ∃ max b r p, Packet.read mode max b = (.ok p, r) ∧ f.path ∈ filtersOf p)
    (buf : Bytes) :
    ((∃ n b', (subscribe id fs).write buf = (.ok n, b')) ↔
      3 + filterSize 3 (fs.map (·.path)) ≤ 268435455) ∧
    (3 + filterSize 3 (fs.map (·.path)) ≤ 268435455 →
      ∃ w, (subscribe id fs).write buf = (.ok w.length, buf ++ w) ∧
        RemLen w (3 + filterSize 3 (fs.map (·.path))) ∧
        ∀ max r, Admits max (3 + filterSize 3 (fs.map (·.path))) →
          Packet.read mode max (w ++ r) = (.ok (subscribe id fs), r)) := by
  have ht : ∀ f ∈ fs, TextField mode f.path := fun f h => by
    obtain ⟨max, b, r, p, hr, hp⟩ := hf f h
    exact filtersOf_text hr _ hp
  exact ⟨(C20_ok_iff _ _).trans (subscribe_encodable fun f h => (ht f h).1),
    fun hl => subscribe_written hne ht hl buf⟩

/-- C79, combining, for UNSUBSCRIBE. -/
theorem C79_join_unsubscribe (mode : StrMode) (id : UInt16) (ts : List Bytes)
    (hf : ∀ t ∈ ts, ∃ max b r p, Packet.read mode max b = (.ok p, r) ∧ t ∈ filtersOf p)
    (buf : Bytes) :
    ((∃ n b', (unsubscribe id ts).write buf = (.ok n, b')) ↔
      3 + filterSize 2 ts ≤ 268435455) ∧
    (3 + filterSize 2 ts ≤ 268435455 →
      ∃ w, (unsubscribe id ts).write buf = (.ok w.length, buf ++ w) ∧
        RemLen w (3 + filterSize 2 ts) ∧
        ∀ max r, Admits max (3 + filterSize 2 ts) →
          Packet.read mode max (w ++ r) = (.ok (unsubscribe id ts), r)) := by
  have ht : ∀ t ∈ ts, TextField mode t := fun t h => by
    obtain ⟨max, b, r, p, hr, hp⟩ := hf t h
    exact filtersOf_text hr _ hp
  exact ⟨(C20_ok_iff _ _).trans (unsubscribe_encodable fun t h => (ht t h).1),
    fun hl => unsubscribe_written ht hl buf⟩

/-- A SUBSCRIBE to "a" and "b/#" is read; "b/#" alone is subscribed to, then unsubscribed from. -/
example : ∃ p, Packet.read .utf8 (some 20)
      [0x82, 13, 0, 1, 0, 0, 1, 0x61, 1, 0, 3, 0x62, 0x2F, 0x23, 2] = (.ok (.Subscribe p), []) ∧
    filtersOf (.Subscribe p) = [[0x61], [0x62, 0x2F, 0x23]] ∧
    (subscribe 7 (p.filters.drop 1)).write [] =
      (.ok 11, [0x82, 9, 0, 7, 0, 0, 3, 0x62, 0x2F, 0x23, 2]) ∧
    (unsubscribe 8 [[0x62, 0x2F, 0x23]]).write [] =
      (.ok 10, [0xA2, 8, 0, 8, 0, 0, 3, 0x62, 0x2F, 0x23]) := by
  refine ⟨{ pkid := 1, properties := none, filters := [
      { path := [0x61], qos := .AtLeastOnce, nolocal := false, preserve_retain := false
        retain_forward_rule := .OnEverySubscribe },
      { path := [0x62, 0x2F, 0x23], qos := .ExactlyOnce, nolocal := false
        preserve_retain := false, retain_forward_rule := .OnEverySubscribe }] },
    by decide +kernel, rfl, by decide +kernel, by decide +kernel⟩

end Props
