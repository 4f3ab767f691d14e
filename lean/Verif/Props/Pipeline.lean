import Verif.Props.Writing
import Verif.Props.Framing
import Verif.Props.Fields
import Verif.Props.Decoded
import Verif.Props.RoundTrip
/-
C12, exactly: pipelining works if and only if every packet survives on its own.
-/
namespace Props

open Mqtt Spec

/-- The packet, written into an empty buffer, is read back up to normalisation. -/
def _root_.Spec.SurvivesAlone (mode : StrMode) (max : Option Nat) (p : Packet) : Prop :=
  ∃ n w, p.write [] = (.ok n, w) ∧ Packet.read mode max w = (.ok (norm p), [])

/-- Reading what was written for one packet, in front of anything. -/
theorem read_written_iff {mode : StrMode} {max : Option Nat} {p q : Packet} {n : Nat} {w : Bytes}
    (h : p.write [] = (.ok n, w)) (r b : Bytes) :
    Packet.read mode max (w ++ r) = (.ok q, b) ↔
      Packet.read mode max w = (.ok q, []) ∧ b = r := by
  have frame : IsFrame w → (Packet.read mode max (w ++ r) = (.ok q, b) ↔
      Packet.read mode max w = (.ok q, []) ∧ b = r) := by
    intro hf
    have hloc := C15_read_local mode max w r hf
    obtain ⟨k, hk⟩ := isFrame_iff.1 hf
    by_cases hm : Admits max k
    · have h0 := C14_frame_consumed mode max w [] k hk hm
      rw [List.append_nil] at h0
      rw [h0, List.nil_append] at hloc
      constructor
      · intro hr
        rw [hr] at hloc
        exact ⟨Prod.ext hloc.1.symm h0, hloc.2⟩
      · rintro ⟨hr, rfl⟩
        rw [hr] at hloc
        exact Prod.ext hloc.1 hloc.2
    · have hno : ∀ s, ∃ e, Packet.read mode max (w ++ s) = (.err e, w ++ s) := fun s =>
        C14_nothing_consumed mode max (w ++ s) (by
          rintro ⟨f, k', r', he, hf', hm'⟩
          obtain ⟨-, rfl, -⟩ := remLen_unique hk hf' he
          exact hm hm')
      obtain ⟨e, he⟩ := hno r
      obtain ⟨e', he'⟩ := hno []
      rw [List.append_nil] at he'
      rw [he, he']
      simp
  by_cases hs : Sound p
  · obtain ⟨he, -, rfl⟩ := write_ok_inv h hs (fun _ => rfl)
    exact frame ⟨byte1 p, _, body p, rfl, encode_body_rep p he⟩
  · obtain ⟨d, rfl⟩ := unsound_cases hs
    replace h : d.write [] = _ := h
    rcases unsound_emits hs with ⟨-, -, hw⟩ | ⟨-, -, -, hw⟩
    · rw [hw [], Prod.mk.injEq, List.nil_append] at h
      obtain ⟨-, rfl⟩ := h
      have hrep : VarintRep [1] 1 := varintRep_small 1 (by decide)
      have bad : ∀ s b, Packet.read mode max ([0xE0, 1, disconnectCode d.reason_code] ++ s) ≠
          (.ok q, b) := by
        intro s b hr
        by_cases hm : Admits max 1
        · have := ((C38_disconnect_exception mode max (disconnectCode d.reason_code) _ s
            ⟨[1], rfl, hrep⟩ hm).1 ⟨_, rfl⟩).symm.trans hr
          cases this
        · obtain ⟨e, he⟩ := C14_nothing_consumed mode max
            ([0xE0, 1, disconnectCode d.reason_code] ++ s) (by
              rintro ⟨f, k', r', he, hf', hm'⟩
              obtain ⟨-, rfl, -⟩ := remLen_unique (f := [0xE0, 1, disconnectCode d.reason_code])
                (n := 1) ⟨0xE0, [1], [disconnectCode d.reason_code], rfl, hrep, rfl⟩ hf' he
              exact hm hm')
          rw [he] at hr
          cases hr
      constructor
      · intro hr; exact absurd hr (bad (0 :: r) b)
      · rintro ⟨hr, -⟩; exact absurd hr (bad [0] [])
    · rw [hw [], Prod.mk.injEq, List.nil_append] at h
      obtain ⟨-, rfl⟩ := h
      exact frame ⟨0xE0, [0], [], rfl, varintRep_small 0 (by decide)⟩

/-- What the packets of a pipeline put into the buffer. -/
theorem writeAll_parts {ps : List Packet} {b b' : Bytes} (hw : WriteAll ps b b')
    (hc : ∀ p ∈ ps, ¬ IsConnect p) :
    ∃ ws : List (Packet × Bytes), ws.map (·.1) = ps ∧ b' = b ++ (ws.map (·.2)).flatten ∧
      ∀ x ∈ ws, ∃ n, x.1.write [] = (.ok n, x.2) := by
  induction hw with
  | nil b => exact ⟨[], rfl, by simp, by simp⟩
  | @cons p ps b b1 b2 n h _ ih =>
    obtain ⟨ws, h1, h2, h3⟩ := ih fun q hq => hc q (.tail _ hq)
    obtain ⟨o, w, he⟩ := C11_appends_partial p (hc p (.head _))
    rw [he b, Prod.mk.injEq] at h
    obtain ⟨rfl, rfl⟩ := h
    refine ⟨(p, w) :: ws, by simp [h1], by simp [h2], ?_⟩
    intro x hx
    rcases List.mem_cons.1 hx with rfl | hx
    · exact ⟨n, by simpa using he []⟩
    · exact h3 x hx

/-- C12, exactly, for buffers written packet by packet and then concatenated (CONNECT anywhere):
the packets come back in order if and only if each of them survives on its own. -/
theorem C12_concat_iff (mode : StrMode) (max : Option Nat) (ps : List (Packet × Bytes)) (r : Bytes)
    (hw : ∀ x ∈ ps, ∃ n, x.1.write [] = (.ok n, x.2)) :
    ReadAll mode max ((ps.map (·.2)).flatten ++ r) (ps.map fun x => norm x.1) r ↔
      ∀ x ∈ ps, SurvivesAlone mode max x.1 := by
  induction ps with
  | nil => simp only [List.map_nil, List.flatten_nil, List.nil_append, List.not_mem_nil,
      false_implies, implies_true, iff_true]; exact .nil _
  | cons x ps ih =>
    obtain ⟨n, hx⟩ := hw x (.head _)
    have ih := ih fun y hy => hw y (.tail _ hy)
    simp only [List.map_cons, List.flatten_cons, List.append_assoc]
    constructor
    · intro h
      cases h with
      | cons h1 h2 =>
        obtain ⟨h3, rfl⟩ := (read_written_iff hx _ _).1 h1
        intro y hy
        rcases List.mem_cons.1 hy with rfl | hy
        · exact ⟨n, _, hx, h3⟩
        · exact ih.1 h2 y hy
    · intro h
      obtain ⟨n', w, h1, h2⟩ := h x (.head _)
      rw [hx, Prod.mk.injEq] at h1
      obtain ⟨-, rfl⟩ := h1
      exact .cons ((read_written_iff hx _ _).2 ⟨h2, rfl⟩) (ih.2 fun y hy => h y (.tail _ hy))

/-- C12, exactly, for packets written one after the other into one buffer (CONNECT only in first
position): they come back in order, and leave what was behind them, if and only if each of them
survives on its own. -/
theorem C12_pipeline_iff (mode : StrMode) (max : Option Nat) (ps : List Packet) (buf r : Bytes)
    (hw : WriteAll ps [] buf) (hc : ∀ p ∈ ps.tail, ¬ IsConnect p) :
    ReadAll mode max (buf ++ r) (ps.map norm) r ↔ ∀ p ∈ ps, SurvivesAlone mode max p := by
  cases hw with
  | nil => simpa using C12_concat_iff mode max [] r (by simp)
  | @cons p ps b b1 b2 n h hw =>
    obtain ⟨ws, h1, h2, h3⟩ := writeAll_parts hw hc
    have := C12_concat_iff mode max ((p, b1) :: ws) r (by
      intro x hx
      rcases List.mem_cons.1 hx with rfl | hx
      · exact ⟨n, h⟩
      · exact h3 x hx)
    subst h1 h2
    simpa [List.map_map, Function.comp_def] using this

theorem optList_normProps {α : Type} (toList : α → List Property) (o : Option α) :
    optList toList (normProps toList o) = optList toList o := by
  cases o with
  | none => rfl
  | some a =>
    by_cases h : toList a = []
    · simp [normProps, Option.filter, optList, h]
    · simp [normProps, Option.filter, optList, h]

theorem props_norm (p : Packet) : props (norm p) = props p := by
  cases p
  case Connect c will login =>
    cases will <;> simp [props, norm, optList_normProps]
  all_goals first | rfl | simp [props, norm, optList_normProps]

theorem texts_norm (p : Packet) : ∀ s ∈ texts p, s ∈ texts (norm p) ∨ s = [] := by
  intro s hs
  cases p
  case Connect c will login =>
    cases login with
    | none => left; simpa [texts, norm] using hs
    | some l =>
      by_cases h : l.username.isEmpty && l.password.isEmpty
      · simp only [Bool.and_eq_true, List.isEmpty_iff] at h
        simp only [texts, List.mem_cons, h.1, h.2, List.not_mem_nil, or_false] at hs
        rcases hs with rfl | hs
        · left; simp [texts, norm]
        · right; rcases hs with h | h <;> exact h
      · left
        simpa [texts, norm, Option.filter, h] using hs
  all_goals exact .inl hs

/-- C12: which packets survive on their own: exactly those that `write` accepts, whose texts are
values of the string type, which are not a DISCONNECT with a reason and no properties, a list packet
with an empty list, or a PUBLISH in which the miscount of subscription identifiers takes effect. -/
theorem C12_survives_iff (mode : StrMode) (p : Packet) :
    SurvivesAlone mode none p ↔ Encodable p ∧ StringsOk mode p ∧ Readable p ∧ ¬ Lossy p := by
  constructor
  · rintro ⟨n, w, hw, hr⟩
    have he := encodable_of_ok hw
    have hs : StringsOk mode p := by
      cases mode
      · have h := C27_texts_utf8 none w [] (norm p) hr
        rw [props_norm] at h
        refine ⟨fun s hs _ => ?_, fun q hq => ?_⟩
        · rcases texts_norm p s hs with h1 | rfl
          · exact h.1 s h1
          · exact ⟨[], rfl⟩
        · intro s hs _
          exact h.2 q hq s hs
      · exact ⟨fun s _ h => (nomatch h), fun q _ s _ h => (nomatch h)⟩
    have hl : ¬ Lossy p := by
      intro hl
      cases p
      case Disconnect d =>
        obtain ⟨h1, h2⟩ := hl
        exact h2 ((C08_disconnect_round_trip_iff d mode none n w [] hw hs (fun m h => nomatch h)).1
          (by rw [List.append_nil]; exact hr) h1)
      all_goals exact hl
    refine ⟨he, hs, ?_, hl⟩
    have hwf := (C28_well_formed mode none w [] _ hr).2.2.2
    cases p
    case Publish q =>
      exact (C03_publish_round_trip_iff q mode none n w [] hw hs (fun m h => nomatch h)).1
        (by rw [List.append_nil]; exact hr)
    case Subscribe q => exact hwf.2
    case SubAck q => exact hwf.2
    case UnsubAck q => exact hwf.2
    all_goals trivial
  · rintro ⟨he, hs, hr, hl⟩
    obtain ⟨n, w, hw⟩ := (C20_ok_iff p []).2 he
    obtain ⟨w', rfl, h⟩ := write_read hw (fun _ => rfl) hs hr hl (max := none) (fun m h => nomatch h)
    refine ⟨n, _, hw, ?_⟩
    simpa using h []

/-- A pipeline that fails at a DISCONNECT, and why. -/
example : ¬ ReadAll .utf8 none [0xC0, 0, 0xE0, 0x01, 0x89, 0x00]
    [.PingReq, .Disconnect { reason_code := .ServerBusy, properties := none }] [] := by
  have hw : WriteAll [.PingReq, .Disconnect { reason_code := .ServerBusy, properties := none }] []
      [0xC0, 0, 0xE0, 0x01, 0x89, 0x00] :=
    .cons (n := 2) (b1 := [0xC0, 0]) (by decide +kernel)
      (.cons (n := 3) (b1 := [0xC0, 0, 0xE0, 0x01, 0x89, 0x00]) (by decide +kernel) (.nil _))
  intro h
  obtain ⟨n, w, h1, h2⟩ := (C12_pipeline_iff .utf8 none _ _ [] hw (by simp [IsConnect])).1 h
    (.Disconnect { reason_code := .ServerBusy, properties := none }) (by simp)
  have h3 : Packet.write (.Disconnect { reason_code := .ServerBusy, properties := none }) [] =
      (.ok 3, [0xE0, 0x01, 0x89, 0x00]) := by decide +kernel
  rw [h3, Prod.mk.injEq] at h1
  rw [← h1.2] at h2
  revert h2
  decide +kernel

end Props
