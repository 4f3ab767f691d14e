import Verif.Spec.Transport
import Verif.Props.Writing
import Verif.Props.Framing
import Verif.Proofs.Typed
import Verif.Props.Samples
/-
C51: a connection. Whatever the schedule (writes, refused writes, transfers of any size, reads),
the receiver gets the packets sent, in order, each once.
-/
namespace Props

open Mqtt Spec

/-- A frame that reads as the packet `q`. -/
def Delivers (mode : StrMode) (max : Option Nat) (w : Bytes) (q : Packet) : Prop :=
  ∀ r, Packet.read mode max (w ++ r) = (.ok q, r)

theorem delivers_frame {mode : StrMode} {max : Option Nat} {w : Bytes} {q : Packet}
    (h : Delivers mode max w q) : ∃ n, RemLen w n ∧ Admits max n := by
  have h0 := h []
  rw [List.append_nil] at h0
  by_cases hf : ∃ f n r, w = f ++ r ∧ RemLen f n ∧ Admits max n
  · obtain ⟨f, n, r, rfl, hr, hm⟩ := hf
    have := C14_frame_consumed mode max f r n hr hm
    rw [h0] at this
    have hr' : r = [] := this.symm
    subst hr'
    exact ⟨n, by rwa [List.append_nil], hm⟩
  · obtain ⟨e, he⟩ := C14_nothing_consumed mode max w hf
    rw [he] at h0
    simp at h0

theorem delivers_ne_nil {mode : StrMode} {max : Option Nat} {w : Bytes} {q : Packet}
    (h : Delivers mode max w q) : w ≠ [] := by
  obtain ⟨n, ⟨b1, v, body, rfl, -⟩, -⟩ := delivers_frame h
  simp

/-- Frames that are on their way: each with the packet it stands for. -/
def OnTheWay (mode : StrMode) (max : Option Nat) (l : Link) : Prop :=
  ∃ fs : List (Bytes × Packet), (∀ x ∈ fs, Delivers mode max x.1 x.2) ∧
    l.inbox ++ l.outbox = (fs.map (·.1)).flatten ∧ l.sent.map norm = l.got ++ fs.map (·.2)

/-- What reading gives if frames are on their way. -/
theorem read_onTheWay {mode : StrMode} {max : Option Nat} {inbox outbox : Bytes}
    {fs : List (Bytes × Packet)} (hf : ∀ x ∈ fs, Delivers mode max x.1 x.2)
    (he : inbox ++ outbox = (fs.map (·.1)).flatten) :
    (∃ w q fs', fs = (w, q) :: fs' ∧ ∃ r, inbox = w ++ r ∧
      Packet.read mode max inbox = (.ok q, r) ∧ r ++ outbox = (fs'.map (·.1)).flatten) ∨
    (∃ k, Packet.read mode max inbox = (.err (.InsufficientBytes k), inbox) ∧ 1 ≤ k ∧
      (fs ≠ [] → k ≤ outbox.length)) := by
  cases fs with
  | nil =>
    have : inbox = [] := by simp at he; exact he.1
    subst this
    exact .inr ⟨2, rfl, by omega, fun h => absurd rfl h⟩
  | cons x fs =>
    obtain ⟨w, q⟩ := x
    have hd := hf (w, q) (by simp)
    simp only [List.map_cons, List.flatten_cons] at he
    rcases List.append_eq_append_iff.1 he with ⟨z, hz1, hz2⟩ | ⟨r, hr1, hr2⟩
    · by_cases hz : z = []
      · subst hz
        rw [List.append_nil] at hz1
        left
        refine ⟨w, q, fs, rfl, [], by simp [hz1], ?_, by simpa using hz2⟩
        rw [← hz1]
        have := hd []
        rwa [List.append_nil] at this
      · right
        obtain ⟨n, ⟨b1, v, body, hw, hv, rfl⟩, hm⟩ := delivers_frame hd
        obtain ⟨k, h1, h2, h3, -⟩ := C16_incomplete mode max b1 v body inbox z hv hm
          (by rw [← hw, hz1]) hz
        refine ⟨k, h1, h2, fun _ => ?_⟩
        rw [hz2, List.length_append]; omega
    · left
      refine ⟨w, q, fs, rfl, r, hr1, ?_, hr2.symm⟩
      rw [hr1]; exact hd r

theorem onTheWay_event {mode : StrMode} {max : Option Nat} {l l' : Link}
    (h : OnTheWay mode max l) (hev : Event mode max l l') : OnTheWay mode max l' := by
  obtain ⟨fs, hf, he, hs⟩ := h
  cases hev with
  | @send p n b hw hd hc =>
    obtain ⟨h1, h2, h3, h4⟩ := hd
    obtain ⟨w, rfl, hread⟩ := write_read hw hc h1 h2 h3 h4
    refine ⟨fs ++ [(w, norm p)], ?_, ?_, ?_⟩
    · intro x hx
      rcases List.mem_append.1 hx with hx | hx
      · exact hf x hx
      · simp only [List.mem_singleton] at hx
        subst hx; exact hread
    · simp only [List.map_append, List.flatten_append, ← he]
      simp
    · simp [hs]
  | @refused p e b hw =>
    obtain ⟨w, rfl⟩ := C21_prefix_partial p l.outbox b e hw
    exact ⟨fs, hf, by simpa using he, hs⟩
  | @transfer x y hxy =>
    refine ⟨fs, hf, ?_, hs⟩
    rw [hxy] at he
    simpa using he
  | @receive p b hr =>
    rcases read_onTheWay hf he with ⟨w, q, fs', rfl, r, hi, hq, hrest⟩ | ⟨k, hk, -⟩
    · rw [hq] at hr
      simp only [Prod.mk.injEq, Out.ok.injEq] at hr
      obtain ⟨rfl, rfl⟩ := hr
      exact ⟨fs', fun x hx => hf x (by simp [hx]), hrest, by simpa using hs⟩
    · rw [hk] at hr; simp at hr
  | @failed e b hr =>
    rcases read_onTheWay hf he with ⟨w, q, fs', rfl, r, hi, hq, hrest⟩ | ⟨k, hk, -⟩
    · rw [hq] at hr; simp at hr
    · rw [hk] at hr
      simp only [Prod.mk.injEq, Out.err.injEq] at hr
      obtain ⟨-, rfl⟩ := hr
      exact ⟨fs, hf, he, hs⟩

theorem onTheWay_events {mode : StrMode} {max : Option Nat} {l l' : Link}
    (h : OnTheWay mode max l) (hev : Events mode max l l') : OnTheWay mode max l' := by
  induction hev with
  | refl => exact h
  | step _ he ih => exact onTheWay_event ih he

theorem onTheWay_start (mode : StrMode) (max : Option Nat) : OnTheWay mode max .start :=
  ⟨[], by simp, rfl, rfl⟩

/-- C51: at every moment the packets received are the first of the packets sent, in order, up to
normalisation. -/
theorem C51_in_order (mode : StrMode) (max : Option Nat) (l : Link)
    (h : Events mode max .start l) : l.got <+: l.sent.map norm := by
  obtain ⟨fs, -, -, hs⟩ := onTheWay_events (onTheWay_start mode max) h
  exact ⟨_, hs.symm⟩

/-- C51: the receiver never sees an error other than `InsufficientBytes`; it leaves the buffer
alone; and if anything sent has not been received, the number reported is not more than what is
still to be transferred. -/
theorem C51_no_errors (mode : StrMode) (max : Option Nat) (l : Link)
    (h : Events mode max .start l) (e : Err) (b : Bytes)
    (hr : Packet.read mode max l.inbox = (.err e, b)) :
    b = l.inbox ∧ ∃ k, e = .InsufficientBytes k ∧ 1 ≤ k ∧
      (l.got.length < l.sent.length → k ≤ l.outbox.length) := by
  obtain ⟨fs, hf, he, hs⟩ := onTheWay_events (onTheWay_start mode max) h
  rcases read_onTheWay hf he with ⟨w, q, fs', rfl, r, hi, hq, hrest⟩ | ⟨k, hk, h1, h2⟩
  · rw [hq] at hr; simp at hr
  · rw [hk] at hr
    simp only [Prod.mk.injEq, Out.err.injEq] at hr
    refine ⟨hr.2.symm, k, hr.1.symm, h1, fun hlt => h2 ?_⟩
    rintro rfl
    have := congrArg List.length hs
    simp at this; omega

/-- C51: when everything has been transferred and there is nothing more to read, everything has
been received and nothing is left over. -/
theorem C51_complete (mode : StrMode) (max : Option Nat) (l : Link)
    (h : Events mode max .start l) (ho : l.outbox = []) (e : Err) (b : Bytes)
    (hr : Packet.read mode max l.inbox = (.err e, b)) :
    l.got = l.sent.map norm ∧ l.inbox = [] := by
  obtain ⟨fs, hf, he, hs⟩ := onTheWay_events (onTheWay_start mode max) h
  rcases read_onTheWay hf he with ⟨w, q, fs', rfl, r, hi, hq, hrest⟩ | ⟨k, hk, h1, h2⟩
  · rw [hq] at hr; simp at hr
  · have hfs : fs = [] := by
      refine Classical.byContradiction fun hne => ?_
      have := h2 hne
      rw [ho] at this; simp at this; omega
    subst hfs
    rw [ho] at he
    exact ⟨by simpa using hs.symm, by simpa using he⟩

theorem finish {mode : StrMode} {max : Option Nat} (fs : List (Bytes × Packet)) : ∀ l : Link,
    (∀ x ∈ fs, Delivers mode max x.1 x.2) → l.outbox = [] → l.inbox = (fs.map (·.1)).flatten →
    Events mode max l { l with inbox := [], got := l.got ++ fs.map (·.2) } := by
  induction fs with
  | nil =>
    intro l _ _ hi
    have : ({ l with inbox := [], got := l.got ++ [] } : Link) = l := by
      cases l; simp at hi ⊢; exact hi
    simp only [List.map_nil, this]
    exact .refl l
  | cons x fs ih =>
    intro l hf ho hi
    have h1 : Event mode max l
        { l with inbox := (fs.map (·.1)).flatten, got := l.got ++ [x.2] } := by
      refine .receive ?_
      rw [hi]
      exact hf x (by simp) _
    have h2 := ih { l with inbox := (fs.map (·.1)).flatten, got := l.got ++ [x.2] }
      (fun y hy => hf y (by simp [hy])) ho rfl
    have trans : ∀ {a b c : Link}, Events mode max a b → Events mode max b c →
        Events mode max a c := by
      intro a b c hab hbc
      induction hbc with
      | refl => exact hab
      | step _ he ih => exact .step ih he
    refine trans (.step (.refl l) h1) ?_
    simpa using h2

/-- C51: from every state the connection can be brought to the point where everything sent has been
received, without sending anything more. -/
theorem C51_can_finish (mode : StrMode) (max : Option Nat) (l : Link)
    (h : Events mode max .start l) : ∃ l', Events mode max l l' ∧ l'.sent = l.sent ∧
      l'.got = l.sent.map norm ∧ l'.inbox = [] ∧ l'.outbox = [] := by
  obtain ⟨fs, hf, he, hs⟩ := onTheWay_events (onTheWay_start mode max) h
  have h1 : Event mode max l { l with outbox := [], inbox := l.inbox ++ l.outbox } :=
    .transfer (by simp)
  have h2 := finish fs { l with outbox := [], inbox := l.inbox ++ l.outbox } hf rfl he
  have trans : ∀ {a b c : Link}, Events mode max a b → Events mode max b c →
      Events mode max a c := by
    intro a b c hab hbc
    induction hbc with
    | refl => exact hab
    | step _ he ih => exact .step ih he
  exact ⟨_, trans (.step (.refl l) h1) h2, rfl, hs.symm, rfl, rfl⟩

/-- A history: a CONNECT and a PINGREQ are written, 52 bytes arrive, and one packet is read. The
next call asks for the second byte of the PINGREQ, which is still in the sender's buffer. -/
example : ∃ l, Events .utf8 none .start l ∧ l.sent = [Sample.connect, .PingReq] ∧
    l.got = [Sample.connect] ∧ l.inbox = [0xC0] ∧ l.outbox = [0x00] ∧
    Packet.read .utf8 none l.inbox = (.err (.InsufficientBytes 1), [0xC0]) := by
  have d1 : Deliverable .utf8 none Sample.connect := by
    have h : (∀ s ∈ texts Sample.connect, IsUtf8 s) ∧
        ∀ q ∈ props Sample.connect, ∀ s ∈ q.texts, IsUtf8 s := by decide +kernel
    exact ⟨⟨fun s hs _ => h.1 s hs, fun q hq s hs _ => h.2 q hq s hs⟩, trivial, id, by simp [Admits]⟩
  have d2 : Deliverable .utf8 none .PingReq := by
    refine ⟨?_, trivial, id, by simp [Admits]⟩
    constructor <;> simp [texts, props]
  let l1 : Link := { sent := [Sample.connect], outbox := Sample.connectBytes, inbox := [], got := [] }
  let l2 : Link := { l1 with sent := [Sample.connect, .PingReq],
                             outbox := Sample.connectBytes ++ [0xC0, 0x00] }
  let l3 : Link := { l2 with outbox := [0x00], inbox := Sample.connectBytes ++ [0xC0] }
  let l4 : Link := { l3 with inbox := [0xC0], got := [Sample.connect] }
  have e1 : Event .utf8 none .start l1 :=
    .send (p := Sample.connect) (n := 51) (by decide +kernel) d1 (fun _ => rfl)
  have e2 : Event .utf8 none l1 l2 :=
    .send (p := .PingReq) (n := 2) (by decide +kernel) d2 (fun h => h.elim)
  have e3 : Event .utf8 none l2 l3 :=
    .transfer (x := Sample.connectBytes ++ [0xC0]) (y := [0x00]) (by decide +kernel)
  have e4 : Event .utf8 none l3 l4 :=
    .receive (p := Sample.connect) (b := [0xC0]) (by decide +kernel)
  exact ⟨l4, .step (.step (.step (.step (.refl _) e1) e2) e3) e4, rfl, rfl, rfl, rfl,
    by decide +kernel⟩

end Props
