import Verif.Proofs.Decoded
import Verif.Proofs.Utf8Sim
import Verif.Proofs.Drain
import Verif.Proofs.Exact
import Verif.Props.Dispatch
/-
C27, C28, C29, C36: what is known of every packet that `Packet::read` returns.
-/
namespace Props

open Mqtt Spec

/-! ### C27

`TextOk .utf8 s` says that `s` is the UTF-8 encoding of a sequence of Unicode scalar values
(Spec/Utf8.lean); mode `.utf8` stands for the string, boxed and Cow features, `.binary` for
`binary_string`. The will topic is not a text in this library: its type is `Bytes`, and it is not
checked under any feature. -/

/-- C27: every text of a decoded packet, in the fields and in the properties, is UTF-8. -/
theorem C27_texts_utf8 (max : Option Nat) (b r : Bytes) (p : Packet)
    (h : Packet.read .utf8 max b = (.ok p, r)) :
    (∀ s ∈ texts p, IsUtf8 s) ∧ (∀ q ∈ props p, ∀ s ∈ q.texts, IsUtf8 s) := by
  obtain ⟨b1, v, bd, -, -, -, hf⟩ := read_facts h
  exact ⟨fun s hs => hf.strings.1 s hs rfl, fun q hq s hs => hf.strings.2 q hq s hs rfl⟩

/-- The two features agree on every stream, except that UTF-8 mode may refuse with
`TopicNotUtf8`. The bytes consumed are the same. -/
theorem C27_modes (max : Option Nat) (b : Bytes) :
    Packet.read .utf8 max b = Packet.read .binary max b ∨
    Packet.read .utf8 max b = (.err .TopicNotUtf8, (Packet.read .binary max b).2) := by
  rcases read_sim max b with h | ⟨b', h⟩
  · exact .inl h
  · refine .inr ?_
    rcases read_dichotomy .utf8 max b with ⟨e, he, -⟩ | ⟨f, n, r, o, rfl, hf, hm, hr⟩
    · exfalso
      rw [he] at h
      simp only [Prod.mk.injEq, Out.err.injEq] at h
      have := C42_errors .utf8 max b b e he
      rw [h.1] at this
      rcases this with ⟨-, ⟨k, h1, -⟩ | ⟨h1, -⟩ | ⟨m, n, b1, v, s, -, -, -, -, h1⟩⟩ | ⟨b1, v, body, h1, hv, -⟩
      · cases h1
      · cases h1
      · cases h1
      · have := congrArg List.length h1
        have := hv.length_pos
        simp only [List.length_cons, List.length_append] at *
        omega
    · obtain ⟨o', hr'⟩ := read_admitted (mode := .binary) hf hm
      rw [hr r] at h ⊢
      simp only [Prod.mk.injEq] at h
      rw [h.1, hr' r]

/-- C27: a frame in which some text of the packet is not UTF-8 is refused with `TopicNotUtf8`,
and only the frame is consumed. The packet is what `binary_string` makes of the frame. -/
theorem C27_refused (max : Option Nat) (b r : Bytes) (p : Packet)
    (h : Packet.read .binary max b = (.ok p, r))
    (hn : ¬ ((∀ s ∈ texts p, IsUtf8 s) ∧ (∀ q ∈ props p, ∀ s ∈ q.texts, IsUtf8 s))) :
    Packet.read .utf8 max b = (.err .TopicNotUtf8, r) := by
  rcases C27_modes max b with h' | h'
  · rw [h] at h'
    exact absurd (C27_texts_utf8 max b r p h') hn
  · rw [h', h]

/-- C27: a frame that is fine for `binary_string` is either delivered identically or refused with
`TopicNotUtf8`; it is delivered exactly if it fits the grammar with UTF-8 texts. -/
theorem C27_accepted_iff (max : Option Nat) (f r : Bytes) (p : Packet)
    (h : Packet.read .binary max (f ++ r) = (.ok p, r)) :
    (Packet.read .utf8 max (f ++ r) = (.ok p, r) ↔ FrameRep .utf8 f p) ∧
    (Packet.read .utf8 max (f ++ r) = (.err .TopicNotUtf8, r) ↔ ¬ FrameRep .utf8 f p) := by
  obtain ⟨b1, v, bd, he, hv, hm, ht, hb⟩ := read_ok_iff.1 h
  have he' : f = b1 :: (v ++ bd) := by
    have : f ++ r = (b1 :: (v ++ bd)) ++ r := by rw [he]; simp
    exact List.append_cancel_right this
  have hok : Packet.read .utf8 max (f ++ r) = (.ok p, r) ↔ FrameRep .utf8 f p := by
    constructor
    · intro h'
      obtain ⟨b1', v', bd', he'', hv', -, ht', hb'⟩ := read_ok_iff.1 h'
      refine ⟨b1', v', bd', ?_, hv', ht', hb'⟩
      have : f ++ r = (b1' :: (v' ++ bd')) ++ r := by rw [he'']; simp
      exact List.append_cancel_right this
    · rintro ⟨b1', v', bd', he'', hv', ht', hb'⟩
      subst he'
      simp only [List.cons.injEq] at he''
      obtain ⟨rfl, hn, rfl⟩ := varintRep_unique hv hv' he''.2
      exact read_ok_iff.2 ⟨b1', v, bd, by rw [he''.1]; simp, hv, hm, ht', hb'⟩
  refine ⟨hok, ?_⟩
  rw [← hok]
  rcases C27_modes max (f ++ r) with h' | h' <;> rw [h', h] <;> simp

/-- C27: with `binary_string` no text is refused, and what is delivered is what is on the wire:
the frame is built from the bytes of the packet's fields as they are. -/
theorem C27_binary_unchanged (max : Option Nat) (b : Bytes) :
    (∀ r, Packet.read .binary max b ≠ (.err .TopicNotUtf8, r)) ∧
    (∀ p r, Packet.read .binary max b = (.ok p, r) → ∃ f, b = f ++ r ∧ FrameRep .binary f p) := by
  constructor
  · intro r h
    rcases C42_errors .binary max b r _ h with
      ⟨-, ⟨k, h1, -⟩ | ⟨h1, -⟩ | ⟨m, n, b1, v, s, -, -, -, -, h1⟩⟩ | ⟨b1, v, body, -, -, -, h1⟩
    · cases h1
    · cases h1
    · cases h1
    · have hno : ∀ t, ¬ FrameError .binary t .TopicNotUtf8 := by
        intro t ht
        unfold FrameError at ht
        split at ht <;> simp [ContentError] at ht
      rcases h1 with ⟨-, h1⟩ | ⟨-, -, -, h1⟩ | ⟨-, h1⟩
      · cases h1
      · cases h1
      · exact hno _ h1
  · intro p r h
    obtain ⟨b1, v, bd, rfl, hv, -, ht, hb⟩ := read_ok_iff.1 h
    exact ⟨b1 :: (v ++ bd), by simp, b1, v, bd, rfl, hv, ht, hb⟩

/-- A CONNECT whose user name is the invalid byte 0xFF. -/
example :
    Packet.read .binary none
      [0x10, 17, 0, 4, 0x4D, 0x51, 0x54, 0x54, 5, 0x80, 0, 10, 0, 0, 1, 0x63, 0, 1, 0xFF, 7] =
      (.ok (.Connect { keep_alive := 10, client_id := [0x63], clean_start := false,
                       properties := none } none
        (some { username := [0xFF], password := [] })), [7]) ∧
    Packet.read .utf8 none
      [0x10, 17, 0, 4, 0x4D, 0x51, 0x54, 0x54, 5, 0x80, 0, 10, 0, 0, 1, 0x63, 0, 1, 0xFF, 7] =
      (.err .TopicNotUtf8, [7]) ∧
    ¬ IsUtf8 [0xFF] := by
  refine ⟨by decide +kernel, by decide +kernel, by decide +kernel⟩

/-- The euro sign, and a surrogate (U+D800), which is not a scalar value. -/
example : IsUtf8 [0xE2, 0x82, 0xAC] ∧ ¬ IsUtf8 [0xED, 0xA0, 0x80] := by decide +kernel

/-! ### C28 -/

/-- C28: every packet returned by `Packet::read` is well formed. `WellFormed` (Spec/Decoded.lean)
lists the invariants. -/
theorem C28_well_formed (mode : StrMode) (max : Option Nat) (b r : Bytes) (p : Packet)
    (h : Packet.read mode max b = (.ok p, r)) : WellFormed p := by
  obtain ⟨b1, v, bd, -, -, -, hf⟩ := read_facts h
  exact hf.shape

/-- C28 for the packets of any stream, read with any sequence of calls. -/
theorem C28_stream (mode : StrMode) (max : Option Nat) (b r : Bytes) (os : List (Out Packet))
    (h : Drains mode max b os r) : ∀ p, .ok p ∈ os → WellFormed p := by
  induction h with
  | stop => intro p hp; cases hp
  | step h1 _ _ ih =>
    intro p hp
    rcases List.mem_cons.1 hp with rfl | hp
    · exact C28_well_formed mode max _ _ p h1
    · exact ih p hp

example : Packet.read .utf8 none Sample.publishBytes = (.ok (Sample.publish [7]), []) := by
  decide +kernel

/-- Not every packet is well formed: one with an empty property record is not. -/
example : ¬ WellFormed Sample.disconnectEmpty := by
  rintro ⟨-, -, -, h⟩
  exact h _ rfl (by decide)

/-! ### C36 -/

/-- C36: the variable-length data of a decoded packet (the strings and binary fields, those of the
properties included, the payload, one for each property and each list entry) are not larger than
the frame's remaining length `n`. -/
theorem C36_no_amplification (mode : StrMode) (max : Option Nat) (f r : Bytes) (n : Nat)
    (p : Packet) (hf : RemLen f n) (h : Packet.read mode max (f ++ r) = (.ok p, r)) :
    dataSize p ≤ n := by
  obtain ⟨b1, v, bd, he, hv, -, hfa⟩ := read_facts h
  have : f ++ r = (b1 :: (v ++ bd)) ++ r := by rw [he]; simp
  obtain ⟨-, rfl, -⟩ := remLen_unique hf ⟨b1, v, bd, rfl, hv, rfl⟩ this
  exact hfa.data

/-- C36 with a limit on the remaining length: the decoded data stay below it, and below what was
consumed. -/
theorem C36_bounded (mode : StrMode) (m : Nat) (b r : Bytes) (p : Packet)
    (h : Packet.read mode (some m) b = (.ok p, r)) :
    dataSize p ≤ m ∧ dataSize p + 2 + r.length ≤ b.length := by
  obtain ⟨b1, v, bd, rfl, hv, hm, ht, hb⟩ := read_ok_iff.1 h
  have h1 := (facts hb hv.le).data
  have h2 := not_overLimit.1 hm m rfl
  have := hv.length_pos
  simp only [List.length_cons, List.length_append]
  omega

/-- C36 for a whole stream: all packets together hold less data than was received. -/
theorem C36_stream (mode : StrMode) (max : Option Nat) (b r : Bytes) (ps : List Packet)
    (h : ReadAll mode max b ps r) : (ps.map dataSize).sum + r.length ≤ b.length := by
  induction h with
  | nil => simp
  | cons h1 _ ih =>
    obtain ⟨b1, v, bd, rfl, hv, -, hfa⟩ := read_facts h1
    have := hfa.data
    simp only [List.map_cons, List.sum_cons, List.length_cons, List.length_append]
    omega

example : dataSize (Sample.publish [7]) = 10 ∧ RemLen Sample.publishBytes 21 := by
  refine ⟨by decide +kernel, 0x33, [21], Sample.publishBytes.drop 2, rfl,
    ⟨[], 21, rfl, by decide, by decide, by decide, rfl⟩, rfl⟩

/-! ### C29 -/

/-- A packet survives writing and reading. -/
def Stable (mode : StrMode) (p : Packet) : Prop :=
  ∃ n buf, p.write [] = (.ok n, buf) ∧
    ∀ r, Packet.read mode none (buf ++ r) = (.ok p, r)

/-- What keeps a decoded packet from being stable: a DISCONNECT with a reason other than normal
disconnection and no property, and a PUBLISH with subscription identifiers such that the miscount
takes effect. -/
def Unstable : Packet → Prop
  | .Disconnect d => d.properties = none ∧ d.reason_code ≠ .NormalDisconnection
  | .Publish p => ¬ DriftSafe (optList PublishProperties.toList p.properties)
  | _ => False

theorem decoded_encodable {mode : StrMode} {n : Nat} {p : Packet} (hf : Facts mode n p)
    (hl : (body p).length ≤ maxVarint) : Encodable p := by
  obtain ⟨-, h2, h3, h4, -, -, -⟩ := hf
  refine ⟨h2, h3, hl, ?_⟩
  have := h4.2.2.2
  cases p with
  | Publish p => exact fun hq h0 => hq (this.2.1 h0)
  | ConnAck p =>
    obtain ⟨-, x, hx⟩ := this
    show connAckCode p.code ≠ none
    rw [hx]; simp
  | _ => trivial

/-- C29, exact: a decoded packet whose encoding is not too long can be written and read back
unchanged, unless it is one of the two exceptions. -/
theorem C29_stable_iff (mode : StrMode) (max : Option Nat) (b r : Bytes) (p : Packet)
    (h : Packet.read mode max b = (.ok p, r)) (hl : (body p).length ≤ maxVarint) :
    Stable mode p ↔ ¬ Unstable p := by
  obtain ⟨b1, v, bd, -, hv, -, hf⟩ := read_facts h
  have he := decoded_encodable hf hl
  have hw := hf.shape.2.2.2
  constructor
  · rintro ⟨n, buf, h1, h2⟩ hu
    cases p with
    | Disconnect d =>
      obtain ⟨hp, hr⟩ := hu
      replace h1 := (Disconnect.write_none hp hr []).symm.trans h1
      simp only [List.nil_append, Prod.mk.injEq] at h1
      have := h2 []
      have h3 := read_disconnect_one (mode := mode) d.reason_code (max := none) nofun [0x00]
      rw [← h1.2, List.append_nil] at this
      exact absurd (this.symm.trans h3) (by simp)
    | Publish p =>
      obtain ⟨-, -, rfl⟩ := write_ok_inv h1 trivial (by simp [IsConnect])
      refine hu (publish_driftSafe (mode := mode) (max := none) (r := []) he ?_)
      rw [hf.norm]; exact h2 []
    | _ => exact hu.elim
  · intro hu
    have hs : Sound p := by
      cases p with
      | Disconnect d =>
        cases hp : d.properties with
        | none =>
          simp only [Sound, hp]
          exact Classical.byContradiction fun hr => hu ⟨hp, hr⟩
        | some q => simp only [Sound, hp]; exact hw q hp
      | _ => trivial
    have hr : Readable p := by
      cases p with
      | Publish p => exact Classical.byContradiction hu
      | Subscribe p => exact hw.2
      | SubAck p => exact hw.2
      | UnsubAck p => exact hw.2
      | _ => trivial
    refine ⟨_, _, write_encode he hs (fun _ => rfl), fun r => ?_⟩
    rw [List.nil_append, read_encode he hf.strings hr (fun _ h => by cases h) r, hf.norm]

/-- C29 (partial): stability for all decoded packets but the two exceptions. The length condition
leaves out only frames within 4 bytes of the protocol's limit. -/
theorem C29_stable_partial (mode : StrMode) (max : Option Nat) (f r : Bytes) (n : Nat) (p : Packet)
    (hf : RemLen f n) (hn : n ≤ 268435451) (h : Packet.read mode max (f ++ r) = (.ok p, r))
    (hu : ¬ Unstable p) : Stable mode p := by
  refine (C29_stable_iff mode max _ r p h ?_).2 hu
  obtain ⟨b1, v, bd, he, hv, -, hfa⟩ := read_facts h
  have : f ++ r = (b1 :: (v ++ bd)) ++ r := by rw [he]; simp
  obtain ⟨-, rfl, -⟩ := remLen_unique hf ⟨b1, v, bd, rfl, hv, rfl⟩ this
  have := hfa.len
  show _ ≤ 268435455
  omega

/-- C29, exact and without condition: a decoded packet can be written and read back unchanged exactly
if its encoding is within the protocol's limit and it is not one of the two exceptions. -/
theorem C29_stable_exact (mode : StrMode) (max : Option Nat) (b r : Bytes) (p : Packet)
    (h : Packet.read mode max b = (.ok p, r)) :
    Stable mode p ↔ (body p).length ≤ maxVarint ∧ ¬ Unstable p := by
  constructor
  · intro hs
    obtain ⟨k, b', h1, h2⟩ := id hs
    have hl : (body p).length ≤ maxVarint := (encodable_of_ok h1).2.2.1
    exact ⟨hl, (C29_stable_iff mode max b r p h hl).1 hs⟩
  · rintro ⟨hl, hu⟩
    exact (C29_stable_iff mode max b r p h hl).2 hu

/-- C29: re-encoding adds at most 4 bytes (the announced length of a property section may be
shorter than its properties, and a reason code gets a property length). -/
theorem C29_size (mode : StrMode) (max : Option Nat) (f r : Bytes) (n : Nat) (p : Packet)
    (hf : RemLen f n) (h : Packet.read mode max (f ++ r) = (.ok p, r)) :
    (body p).length ≤ n + 4 := by
  obtain ⟨b1, v, bd, he, hv, -, hfa⟩ := read_facts h
  have : f ++ r = (b1 :: (v ++ bd)) ++ r := by rw [he]; simp
  obtain ⟨-, rfl, -⟩ := remLen_unique hf ⟨b1, v, bd, rfl, hv, rfl⟩ this
  exact hfa.len

/-- C29 does not hold in full: this DISCONNECT is decoded, but what is written for it cannot be
read. -/
theorem C29_disconnect_exception :
    Packet.read .utf8 none [0xE0, 2, 0x89, 0] = (.ok Sample.disconnectNone, []) ∧
    ¬ Stable .utf8 Sample.disconnectNone := by
  have h : Packet.read .utf8 none [0xE0, 2, 0x89, 0] = (.ok Sample.disconnectNone, []) := by
    decide +kernel
  refine ⟨h, fun hs => (C29_stable_iff .utf8 none _ _ _ h (by decide +kernel)).1 hs ?_⟩
  exact ⟨rfl, by decide⟩

/-- C29 does not hold in full: three subscription identifiers that are decoded when other
properties follow are not decoded from what is written, where they come last. -/
theorem C29_publish_exception :
    Packet.read .utf8 none
      [0x33, 25, 0, 3, 0x61, 0x2F, 0x62, 0, 42, 15, 0x0B, 1, 0x0B, 2, 0x0B, 3, 0x01, 1,
       0x26, 0, 1, 0x6B, 0, 1, 0x76, 0xDE, 0xAD] = (.ok (Sample.publish [1, 2, 3]), []) ∧
    ¬ Stable .utf8 (Sample.publish [1, 2, 3]) := by
  have h : Packet.read .utf8 none
      [0x33, 25, 0, 3, 0x61, 0x2F, 0x62, 0, 42, 15, 0x0B, 1, 0x0B, 2, 0x0B, 3, 0x01, 1,
       0x26, 0, 1, 0x6B, 0, 1, 0x76, 0xDE, 0xAD] = (.ok (Sample.publish [1, 2, 3]), []) := by
    decide +kernel
  refine ⟨h, fun hs => ?_⟩
  obtain ⟨n, buf, h1, h2⟩ := hs
  have h3 : (Sample.publish [1, 2, 3]).write [] =
      (.ok 27, [0x33, 25, 0, 3, 0x61, 0x2F, 0x62, 0, 42, 15, 0x01, 1, 0x26, 0, 1, 0x6B, 0, 1, 0x76,
        0x0B, 1, 0x0B, 2, 0x0B, 3, 0xDE, 0xAD]) := by decide +kernel
  rw [h3] at h1
  simp only [Prod.mk.injEq] at h1
  have h4 := h2 []
  rw [← h1.2] at h4
  exact absurd h4 (by decide +kernel)

/-- A padded, reordered SUBSCRIBE is decoded to a stable packet. -/
example : Stable .utf8 Sample.subscribe :=
  (C29_stable_iff .utf8 none Sample.subscribeBytes [] _ (by decide +kernel)
    (by decide +kernel)).2 (by simp [Unstable, Sample.subscribe])

end Props
