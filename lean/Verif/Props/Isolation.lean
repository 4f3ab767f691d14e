import Verif.Props.Framing
/-
C61: the frames of a stream are decoded independently of each other.
-/
namespace Props

open Mqtt Spec

/-- C61: reading a stream as long as bytes are consumed splits it into the complete admissible frames
at its beginning, and returns for each of them, in order, what reading it alone returns, be it a
packet or an error; what is left does not begin with such a frame. -/
theorem C61_frames_iff (mode : StrMode) (max : Option Nat) (b r : Bytes) (os : List (Out Packet)) :
    Drains mode max b os r ↔
      ∃ fs : List Bytes, b = fs.flatten ++ r ∧ (∀ f ∈ fs, ∃ n, RemLen f n ∧ Admits max n) ∧
        os = fs.map (fun f => (Packet.read mode max f).1) ∧
        ¬ ∃ f n s, r = f ++ s ∧ RemLen f n ∧ Admits max n := by
  have hne : ∀ {f : Bytes} {n : Nat}, RemLen f n → ∀ s, f ++ s ≠ s := by
    rintro f n ⟨b1, v, bd, rfl, -, -⟩ s h
    have := congrArg List.length h
    simp at this
    omega
  have hframe : ∀ {f : Bytes} {n : Nat}, RemLen f n → IsFrame f :=
    fun ⟨b1, v, bd, h1, h2, _⟩ => ⟨b1, v, bd, h1, h2⟩
  constructor
  · intro h
    induction h with
    | @stop b hs =>
      refine ⟨[], by simp, by simp, rfl, ?_⟩
      rintro ⟨f, n, s, rfl, hf, hm⟩
      rw [C14_frame_consumed mode max f s n hf hm] at hs
      exact hne hf s hs.symm
    | @step b b1 b2 o os hr hb _ ih =>
      obtain ⟨fs, h1, h2, h3, h4⟩ := ih
      by_cases hx : ∃ f n s, b = f ++ s ∧ RemLen f n ∧ Admits max n
      · obtain ⟨f, n, s, rfl, hf, hm⟩ := hx
        have hc := C14_frame_consumed mode max f s n hf hm
        rw [hr] at hc
        have hc : b1 = s := hc
        subst hc
        refine ⟨f :: fs, by simp [h1], ?_, ?_, h4⟩
        · intro g hg
          rcases List.mem_cons.1 hg with rfl | hg
          · exact ⟨n, hf, hm⟩
          · exact h2 g hg
        · have := (C15_read_local mode max f b1 (hframe hf)).1
          rw [hr] at this
          simp [h3, ← this]
      · obtain ⟨e, he⟩ := C14_nothing_consumed mode max b hx
        rw [hr] at he
        exact absurd (congrArg Prod.snd he) hb
  · rintro ⟨fs, rfl, h2, rfl, h4⟩
    induction fs with
    | nil =>
      obtain ⟨e, he⟩ := C14_nothing_consumed mode max r h4
      simp only [List.flatten_nil, List.nil_append, List.map_nil]
      exact .stop (by rw [he])
    | cons f fs ih =>
      obtain ⟨n, hf, hm⟩ := h2 f (by simp)
      have ih := ih fun g hg => h2 g (by simp [hg])
      have e1 := C14_frame_consumed mode max f (fs.flatten ++ r) n hf hm
      have e2 := (C15_read_local mode max f (fs.flatten ++ r) (hframe hf)).1
      simp only [List.flatten_cons, List.append_assoc, List.map_cons]
      have e : Packet.read mode max (f ++ (fs.flatten ++ r)) =
          ((Packet.read mode max f).1, fs.flatten ++ r) := Prod.ext e2 e1
      exact .step e (fun h => hne hf (fs.flatten ++ r) h.symm) ih

/-- C61: so a frame that is exchanged for another one, for instance a damaged one, changes the result
for this frame and no other. -/
theorem C61_isolation (mode : StrMode) (max : Option Nat) (fs gs : List Bytes) (f f' r rest : Bytes)
    (os : List (Out Packet)) (n n' : Nat) (hfs : ∀ g ∈ fs, ∃ n, RemLen g n ∧ Admits max n)
    (hgs : ∀ g ∈ gs, ∃ n, RemLen g n ∧ Admits max n)
    (hf : RemLen f n) (hm : Admits max n) (hf' : RemLen f' n') (hm' : Admits max n')
    (h : Drains mode max (fs.flatten ++ f ++ gs.flatten ++ r) os rest) :
    ∃ pre o post, os = pre ++ o :: post ∧ pre.length = fs.length ∧
      Drains mode max (fs.flatten ++ f' ++ gs.flatten ++ r)
        (pre ++ (Packet.read mode max f').1 :: post) rest := by
  obtain ⟨os1, r1, h1, hu1⟩ := C17_drain_unique mode max r
  obtain ⟨hs, rfl, h2, rfl, h4⟩ := (C61_frames_iff mode max r r1 os1).1 h1
  have key : ∀ x n, RemLen x n → Admits max n →
      Drains mode max (fs.flatten ++ x ++ gs.flatten ++ (hs.flatten ++ r1))
        (fs.map (fun f => (Packet.read mode max f).1) ++ (Packet.read mode max x).1 ::
          ((gs ++ hs).map fun f => (Packet.read mode max f).1)) r1 := by
    intro x n hx hmx
    refine (C61_frames_iff mode max _ r1 _).2 ⟨fs ++ x :: (gs ++ hs), by simp, ?_, by simp, h4⟩
    intro g hg
    simp only [List.mem_append, List.mem_cons] at hg
    rcases hg with hg | rfl | hg | hg
    · exact hfs g hg
    · exact ⟨n, hx, hmx⟩
    · exact hgs g hg
    · exact h2 g hg
  obtain ⟨o1, r2, _, hu⟩ := C17_drain_unique mode max
    (fs.flatten ++ f ++ gs.flatten ++ (hs.flatten ++ r1))
  obtain ⟨rfl, rfl⟩ := hu _ _ h
  obtain ⟨e1, rfl⟩ := hu _ _ (key f n hf hm)
  exact ⟨_, _, _, e1.symm, by simp, key f' n' hf' hm'⟩

/-- The hypotheses can be met: three frames of which the second (QoS 3) is refused. -/
example : Drains .utf8 none [0xC0, 0, 0x36, 3, 0, 1, 0x61, 0xD0, 0, 0x30]
    [.ok .PingReq, .err (.InvalidQoS 3), .ok .PingResp] [0x30] :=
  .step (b1 := [0x36, 3, 0, 1, 0x61, 0xD0, 0, 0x30]) (by decide +kernel) (by decide)
    (.step (b1 := [0xD0, 0, 0x30]) (by decide +kernel) (by decide)
      (.step (b1 := [0x30]) (by decide +kernel) (by decide) (.stop (by decide +kernel))))

end Props
