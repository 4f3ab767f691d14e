import Verif.Proofs.Inject
import Verif.Props.Samples
/-
C10-C12, C20-C22, C30, C31: writing.
-/
namespace Props

open Mqtt Spec

/-! ### C10 -/

/-- C10: the number returned is the packet's `size()`, where that method exists. -/
theorem C10_size (p : Packet) (b b' : Bytes) (n : Nat) (h : p.write b = (.ok n, b')) :
    SizeIs n p := write_size h

theorem varint_one : varint 1 = [1] := by rw [varint]; rfl

/-- C10: the number returned is the length of the frame announced in the fixed header (CONNECT:
written into an empty buffer). -/
theorem C10_announced (p : Packet) (b b' : Bytes) (n : Nat) (h : p.write b = (.ok n, b'))
    (hb : IsConnect p → b = []) :
    ∃ b1 v k rest, b' = b ++ b1 :: (v ++ rest) ∧ VarintRep v k ∧ n = 1 + v.length + k := by
  by_cases hs : Sound p
  · obtain ⟨he, rfl, rfl⟩ := write_ok_inv h hs hb
    refine ⟨byte1 p, varint (body p).length, (body p).length, body p, rfl, encode_body_rep p he, ?_⟩
    simp [encode, frame]; omega
  · obtain ⟨d, rfl⟩ := unsound_cases hs
    replace h : d.write b = (.ok n, b') := h
    rcases unsound_emits hs with ⟨-, -, hw⟩ | ⟨q, -, -, hw⟩
    · rw [hw b] at h
      simp only [Prod.mk.injEq, Out.ok.injEq] at h
      obtain ⟨rfl, rfl⟩ := h
      exact ⟨0xE0, [1], 1, [disconnectCode d.reason_code, 0], rfl,
        ⟨[], 1, rfl, by simp, by simp, by decide, rfl⟩, rfl⟩
    · rw [hw b] at h
      simp only [Prod.mk.injEq, Out.ok.injEq] at h
      obtain ⟨rfl, rfl⟩ := h
      exact ⟨0xE0, [0], 0, [], rfl, ⟨[], 0, rfl, by simp, by simp, by decide, rfl⟩, rfl⟩

/-- C10: the number returned is the number of bytes added, except for a DISCONNECT without property
record whose reason is not normal disconnection, where one more byte is added. CONNECT into any
buffer is included. -/
theorem C10_added_iff (p : Packet) (b b' : Bytes) (n : Nat) (h : p.write b = (.ok n, b')) :
    (b'.length = b.length + n ↔ ¬ Overlong p) ∧ (Overlong p → b'.length = b.length + n + 1) := by
  by_cases hs : Sound p
  · have hno : ¬ Overlong p := by
      cases p
      case Disconnect d =>
        rintro ⟨h1, h2⟩
        simp only [Sound, h1] at hs
        exact h2 hs
      all_goals exact fun h => h
    refine ⟨⟨fun _ => hno, fun _ => ?_⟩, fun ho => absurd ho hno⟩
    have he := encodable_of_ok h
    by_cases hc : IsConnect p
    · obtain ⟨c, w, l, rfl⟩ := connect_cases hc
      replace h : c.write w l b = (.ok n, b') := h
      rw [Connect.write_ok c w l he b] at h
      simp only [Prod.mk.injEq, Out.ok.injEq] at h
      obtain ⟨rfl, rfl⟩ := h
      rw [List.length_set, List.length_append, ← connect_patch, List.length_set]
    · obtain ⟨-, rfl, rfl⟩ := write_ok_inv h hs (fun h => absurd h hc)
      simp
  · obtain ⟨d, rfl⟩ := unsound_cases hs
    replace h : d.write b = (.ok n, b') := h
    rcases unsound_emits hs with ⟨h1, h2, hw⟩ | ⟨q, h1, -, hw⟩
    · rw [hw b] at h
      simp only [Prod.mk.injEq, Out.ok.injEq] at h
      obtain ⟨rfl, rfl⟩ := h
      have : Overlong (.Disconnect d) := ⟨h1, h2⟩
      simp [this]
    · rw [hw b] at h
      simp only [Prod.mk.injEq, Out.ok.injEq] at h
      obtain ⟨rfl, rfl⟩ := h
      have : ¬ Overlong (.Disconnect d) := by rintro ⟨h3, -⟩; rw [h1] at h3; cases h3
      simp [this]

/-- C10, partial: all clauses for every packet but the `Overlong` DISCONNECTs, for which
`C10_counterexample` shows that the full statement is false. -/
theorem C10_size_partial (p : Packet) (b b' : Bytes) (n : Nat) (h : p.write b = (.ok n, b'))
    (ho : ¬ Overlong p) : b'.length = b.length + n ∧ SizeIs n p :=
  ⟨((C10_added_iff p b b' n h).1).2 ho, write_size h⟩

/-- C10 does not hold for this DISCONNECT: 3 is returned and announced, 4 bytes are added. -/
theorem C10_counterexample :
    Packet.write (.Disconnect { reason_code := .ServerBusy, properties := none }) [] =
      (.ok 3, [0xE0, 0x01, 0x89, 0x00]) := by decide +kernel

example : Sample.connect.write [] = (.ok 51, Sample.connectBytes) := by decide +kernel
example : ¬ Overlong Sample.connect := by decide

/-! ### C11 -/

/-- C11, partial: for every packet but CONNECT there are an outcome and bytes such that, whatever
the buffer holds, this is the outcome and these bytes are appended. `C11_counterexample` shows that
this is false for CONNECT; `C11_connect` says what happens there. -/
theorem C11_appends_partial (p : Packet) (hc : ¬ IsConnect p) :
    ∃ o w, ∀ b, p.write b = (o, b ++ w) := write_emits hc

theorem connect_unpatched (c : Connect) (w : Option LastWill) (l : Option Login) :
    frame 0x10 (connectBody0 c w l) = (encode (.Connect c w l)).set
      (flagsIndex (.Connect c w l)) (UInt8.ofNat (2 * bit c.clean_start)) := by
  have hidx : flagsIndex (.Connect c w l) =
      8 + (varint (connectBody0 c w l).length).length := by
    rw [flagsIndex, connectBody0_length]; omega
  have hcl : cleanFlags c = UInt8.ofNat (2 * bit c.clean_start) := by
    unfold cleanFlags bit; cases c.clean_start <;> rfl
  rw [hidx, ← connect_patch, List.set_set, ← hcl]
  symm
  show List.set (0x10 :: _) _ _ = 0x10 :: _
  rw [show 8 + (varint (connectBody0 c w l).length).length =
    ((varint (connectBody0 c w l).length).length + 7) + 1 by omega, List.set_cons_succ,
    List.set_append_right _ _ (by omega)]
  congr 2
  rw [show (varint (connectBody0 c w l).length).length + 7 -
    (varint (connectBody0 c w l).length).length = 7 by omega]
  rfl

/-- C11 for CONNECT, exactly: the encoding is appended with only the clean start bit in the flags
byte, and the complete flags are then stored at the position that the flags byte would have in an
empty buffer. -/
theorem C11_connect (c : Connect) (will : Option LastWill) (login : Option Login)
    (he : Encodable (.Connect c will login)) (b : Bytes) :
    (Packet.Connect c will login).write b =
      (.ok (encode (.Connect c will login)).length,
        (b ++ (encode (.Connect c will login)).set (flagsIndex (.Connect c will login))
          (UInt8.ofNat (2 * bit c.clean_start))).set (flagsIndex (.Connect c will login))
          (UInt8.ofNat (connectFlags c will login))) := by
  rw [← connect_unpatched]
  have := Connect.write_ok c will login he b
  rw [show flagsIndex (.Connect c will login) =
    8 + (varint (body (.Connect c will login)).length).length by unfold flagsIndex; omega]
  exact this

/-- C11 for CONNECT: the old content of the buffer survives exactly if it is too short to reach
that position or happens to hold the flags there. -/
theorem C11_connect_iff (c : Connect) (will : Option LastWill) (login : Option Login)
    (he : Encodable (.Connect c will login)) (b : Bytes) :
    b <+: ((Packet.Connect c will login).write b).2 ↔
      b.length ≤ flagsIndex (.Connect c will login) ∨
      b[flagsIndex (.Connect c will login)]? = some (UInt8.ofNat (connectFlags c will login)) := by
  rw [C11_connect c will login he b]
  generalize flagsIndex (.Connect c will login) = i
  generalize UInt8.ofNat (connectFlags c will login) = f
  generalize List.set (encode _) _ _ = e
  by_cases hi : b.length ≤ i
  · simp only [hi, true_or, iff_true]
    rw [List.set_append_right _ _ hi]
    exact List.prefix_append _ _
  · simp only [hi, false_or]
    rw [List.set_append_left _ _ (by omega)]
    constructor
    · rintro ⟨t, ht⟩
      have h1 := (List.append_inj ht (by simp)).1
      rw [h1, List.getElem?_set_self (by omega)]
    · intro h
      have : b.set i f = b := by
        apply List.ext_getElem?
        intro j
        by_cases hj : i = j
        · subst hj; rw [List.getElem?_set_self (by omega), h]
        · rw [List.getElem?_set_ne hj]
      rw [this]; exact List.prefix_append _ _

/-- C11 does not hold for CONNECT: eleven bytes in the buffer, the tenth is overwritten, and the
flags in the frame appended lack the bits of the will and the login. -/
theorem C11_counterexample :
    (Packet.Connect { keep_alive := 60, client_id := [], clean_start := true, properties := none }
      none (some { username := [0x75], password := [] })).write
        [1, 2, 3, 4, 5, 6, 7, 8, 9, 10, 11] =
      (.ok 18, [1, 2, 3, 4, 5, 6, 7, 8, 9, 0x82, 11] ++
        [0x10, 16, 0, 4, 0x4D, 0x51, 0x54, 0x54, 5, 0x02, 0, 60, 0, 0, 0, 0, 1, 0x75]) := by
  decide +kernel

example : ¬ IsConnect (Sample.publish [7]) := by decide
example : (Sample.publish [7]).write [1, 2] = (.ok 23, [1, 2] ++ Sample.publishBytes) := by
  decide +kernel

/-! ### C12 -/

/-- What a packet that is not lossy appends is read back. -/
theorem write_read {p : Packet} {mode : StrMode} {max : Option Nat} {b b' : Bytes} {n : Nat}
    (h : p.write b = (.ok n, b')) (hb : IsConnect p → b = []) (hs : StringsOk mode p)
    (hr : Readable p) (hl : ¬ Lossy p) (hm : Admits max (body p).length) :
    ∃ w, b' = b ++ w ∧ ∀ r, Packet.read mode max (w ++ r) = (.ok (norm p), r) := by
  by_cases hsd : Sound p
  · obtain ⟨he, -, rfl⟩ := write_ok_inv h hsd hb
    exact ⟨_, rfl, read_encode he hs hr hm⟩
  · obtain ⟨d, rfl⟩ := unsound_cases hsd
    replace h : d.write b = (.ok n, b') := h
    rcases unsound_emits hsd with ⟨h1, h2, hw⟩ | ⟨q, h1, h2, hw⟩
    · exact absurd ⟨by rw [h1]; rfl, h2⟩ hl
    · rw [hw b] at h
      simp only [Prod.mk.injEq, Out.ok.injEq] at h
      refine ⟨[0xE0, 0x00], h.2.symm, fun r => ?_⟩
      have hrc : d.reason_code = .NormalDisconnection := Classical.byContradiction fun h3 =>
        hl ⟨by rw [h1]; exact h2, h3⟩
      rw [read_disconnect_nil]
      simp [norm, normProps, Option.filter, h1, h2, hrc]

/-- C12, partial: packets written one after the other into an empty buffer are read back in order,
up to normalisation, and then the buffer holds exactly what was behind them. The hypotheses: each
packet can be read back on its own (`Readable`, not `Lossy`, see C03, C05, C06, C08), and CONNECT
can only be the first packet. `C12_counterexample` shows that the last cannot be dropped. -/
theorem C12_pipeline_partial (mode : StrMode) (max : Option Nat) (ps : List Packet) (buf r : Bytes)
    (hw : WriteAll ps [] buf)
    (hp : ∀ p ∈ ps, StringsOk mode p ∧ Readable p ∧ ¬ Lossy p ∧ Admits max (body p).length)
    (hc : ∀ p ∈ ps.tail, ¬ IsConnect p) : ReadAll mode max (buf ++ r) (ps.map norm) r := by
  have key : ∀ (ps : List Packet) (b b' : Bytes), WriteAll ps b b' →
      (∀ p ∈ ps, StringsOk mode p ∧ Readable p ∧ ¬ Lossy p ∧ Admits max (body p).length) →
      (∀ p ∈ ps, ¬ IsConnect p) →
      ∃ w, b' = b ++ w ∧ ReadAll mode max (w ++ r) (ps.map norm) r := by
    intro ps b b' hw
    induction hw with
    | nil b => intro _ _; exact ⟨[], by simp, .nil _⟩
    | cons h _ ih =>
      intro hp hc
      obtain ⟨hs, hr, hl, hm⟩ := hp _ (.head _)
      obtain ⟨w, rfl, hread⟩ := write_read h (fun h' => absurd h' (hc _ (.head _))) hs hr hl hm
      obtain ⟨w', rfl, hall⟩ := ih (fun q hq => hp q (by simp [hq])) (fun q hq => hc q (by simp [hq]))
      refine ⟨w ++ w', by simp, .cons (b1 := w' ++ r) ?_ hall⟩
      rw [List.append_assoc]; exact hread _
  cases hw with
  | nil => exact .nil _
  | cons h hw' =>
    obtain ⟨hs, hr, hl, hm⟩ := hp _ (.head _)
    obtain ⟨w, rfl, hread⟩ := write_read h (fun _ => rfl) hs hr hl hm
    obtain ⟨w', rfl, hall⟩ := key _ _ _ hw' (fun q hq => hp q (by simp [hq])) hc
    refine .cons (b1 := w' ++ r) ?_ hall
    rw [List.append_assoc]; exact hread _

/-- C12: if each packet is written into its own empty buffer and the buffers are concatenated, CONNECT may
stand anywhere. -/
theorem C12_concat_partial (mode : StrMode) (max : Option Nat) (ps : List (Packet × Bytes)) (r : Bytes)
    (hw : ∀ x ∈ ps, ∃ n, x.1.write [] = (.ok n, x.2))
    (hp : ∀ x ∈ ps, StringsOk mode x.1 ∧ Readable x.1 ∧ ¬ Lossy x.1 ∧
      Admits max (body x.1).length) :
    ReadAll mode max ((ps.map (·.2)).flatten ++ r) (ps.map fun x => norm x.1) r := by
  induction ps with
  | nil => exact .nil _
  | cons x ps ih =>
    obtain ⟨n, h⟩ := hw x (by simp)
    obtain ⟨hs, hr, hl, hm⟩ := hp x (by simp)
    obtain ⟨w, hw', hread⟩ := write_read h (fun _ => rfl) hs hr hl hm
    rw [List.nil_append] at hw'
    refine .cons (b1 := (ps.map (·.2)).flatten ++ r) ?_ (ih (fun y hy => hw y (by simp [hy]))
      (fun y hy => hp y (by simp [hy])))
    simp only [List.map_cons, List.flatten_cons, List.append_assoc, hw']
    exact hread _

/-- C12 does not hold in full: a CONNECT with a user name, written behind five PINGREQs, comes back
without the user name, and one of the PINGREQs turns into something else. -/
theorem C12_counterexample :
    let ping := Packet.PingReq
    let c : Connect := { keep_alive := 60, client_id := [], clean_start := true, properties := none }
    let l : Login := { username := [0x75], password := [] }
    ∃ buf, WriteAll [ping, ping, ping, ping, ping, .Connect c none (some l)] [] buf ∧
      ReadAll .utf8 none (buf.drop 10) [.Connect c none none] [] ∧
      Packet.read .utf8 none (buf.drop 8) = (.err (.InsufficientBytes 2033), buf.drop 8) := by
  refine ⟨[0xC0, 0, 0xC0, 0, 0xC0, 0, 0xC0, 0, 0xC0, 0x82,
    0x10, 16, 0, 4, 0x4D, 0x51, 0x54, 0x54, 5, 0x02, 0, 60, 0, 0, 0, 0, 1, 0x75], ?_, ?_, ?_⟩
  · refine .cons (n := 2) (b1 := [0xC0, 0]) (by decide +kernel) ?_
    refine .cons (n := 2) (b1 := [0xC0, 0, 0xC0, 0]) (by decide +kernel) ?_
    refine .cons (n := 2) (b1 := [0xC0, 0, 0xC0, 0, 0xC0, 0]) (by decide +kernel) ?_
    refine .cons (n := 2) (b1 := [0xC0, 0, 0xC0, 0, 0xC0, 0, 0xC0, 0]) (by decide +kernel) ?_
    refine .cons (n := 2) (b1 := [0xC0, 0, 0xC0, 0, 0xC0, 0, 0xC0, 0, 0xC0, 0])
      (by decide +kernel) ?_
    exact .cons (n := 18) (by decide +kernel) (.nil _)
  · exact .cons (b1 := []) (by decide +kernel) (.nil _)
  · decide +kernel

example : WriteAll [Sample.connect, .PingReq, Sample.publish [7]] []
    (Sample.connectBytes ++ [0xC0, 0] ++ Sample.publishBytes) :=
  .cons (n := 51) (b1 := Sample.connectBytes) (by decide +kernel)
    (.cons (n := 2) (b1 := Sample.connectBytes ++ [0xC0, 0]) (by decide +kernel)
      (.cons (n := 23) (by decide +kernel) (.nil _)))

/-! ### C20 -/

/-- C20: `write` succeeds exactly for the encodable packets, on every buffer. -/
theorem C20_ok_iff (p : Packet) (b : Bytes) :
    (∃ n b', p.write b = (.ok n, b')) ↔ Encodable p := by
  constructor
  · rintro ⟨n, b', h⟩; exact encodable_of_ok h
  · intro he
    by_cases hs : Sound p
    · by_cases hc : IsConnect p
      · obtain ⟨c, w, l, rfl⟩ := connect_cases hc
        exact ⟨_, _, Connect.write_ok c w l he b⟩
      · exact ⟨_, _, write_encode he hs (fun h => absurd h hc)⟩
    · obtain ⟨d, rfl⟩ := unsound_cases hs
      rcases unsound_emits hs with ⟨-, -, hw⟩ | ⟨q, -, -, hw⟩ <;> exact ⟨_, _, hw b⟩

/-- C20, partial: every other packet except a CONNACK with an MQTT 3 return code (`Legacy`; there
`write` panics, see C22) is refused, and the error is one that applies. -/
theorem C20_refusal_partial (p : Packet) (b : Bytes) (he : ¬ Encodable p) (hl : ¬ Legacy p) :
    ∃ e b', p.write b = (.err e, b') ∧ Refusal p e := by
  obtain ⟨e, w, hr, hw⟩ := write_refuse he hl
  exact ⟨e, _, hw b, hr⟩

/-- C20: whatever error `write` returns, it is one of the three and it applies. -/
theorem C20_error (p : Packet) (b b' : Bytes) (e : Err) (h : p.write b = (.err e, b')) :
    Refusal p e := by
  have he : ¬ Encodable p := by
    intro he
    obtain ⟨n, b'', h'⟩ := (C20_ok_iff p b).2 he
    rw [h'] at h; simp at h
  by_cases hl : Legacy p
  · obtain ⟨c, rfl⟩ := legacy_cases hl
    replace h : c.write b = (.err e, b') := h
    rcases connAck_legacy hl with ⟨-, w, hw⟩ | ⟨hlen, hw⟩
    · rw [hw b] at h; simp at h
    · rw [hw b] at h
      simp only [Prod.mk.injEq, Out.err.injEq] at h
      refine .inr (.inl ⟨h.1.symm, ?_⟩)
      by_cases hf : ∀ q ∈ props (.ConnAck c), FitsNum q
      · right
        have := (ConnAck.lenSpec c hf).1
        simp only [maxVarint]; omega
      · simp only [Classical.not_forall] at hf
        obtain ⟨q, hq, hf⟩ := hf
        left
        cases q <;> simp only [FitsNum, not_true_eq_false, Nat.not_le] at hf
        exact ⟨_, hq, hf⟩
  · obtain ⟨e', w, hr, hw⟩ := write_refuse he hl
    rw [hw b] at h
    simp only [Prod.mk.injEq, Out.err.injEq] at h
    rw [← h.1]; exact hr

example : Packet.write (.Publish {
    dup := false, qos := .ExactlyOnce, retain := false, topic := [0x61], pkid := 0, payload := [],
    properties := none }) [] =
    (.err .PacketIdZero, [0x34, 4, 0, 1, 0x61]) := by decide +kernel

/-! ### C21 -/

/-- C21, partial: after an error the old content is still the beginning of the buffer (so that the
caller can truncate). Missing: that nothing is appended, which is false. -/
theorem C21_prefix_partial (p : Packet) (b b' : Bytes) (e : Err) (h : p.write b = (.err e, b')) :
    ∃ w, b' = b ++ w := by
  by_cases hc : IsConnect p
  · have he : ¬ Encodable p := by
      intro he
      obtain ⟨n, b'', h'⟩ := (C20_ok_iff p b).2 he
      rw [h'] at h; simp at h
    have hl : ¬ Legacy p := by
      obtain ⟨c, w, l, rfl⟩ := connect_cases hc
      simp [Legacy]
    obtain ⟨e', w, hr, hw⟩ := write_refuse he hl
    rw [hw b] at h
    simp only [Prod.mk.injEq] at h
    exact ⟨w, h.2.symm⟩
  · obtain ⟨o, w, hw⟩ := write_emits hc
    rw [hw b] at h
    simp only [Prod.mk.injEq] at h
    exact ⟨w, h.2.symm⟩

/-- C21 does not hold: a refused PUBLISH leaves five bytes in the buffer. -/
theorem C21_counterexample :
    Packet.write (.Publish {
      dup := false, qos := .AtLeastOnce, retain := false, topic := [0x61], pkid := 0, payload := [],
      properties := none }) [0xC0, 0x00] =
      (.err .PacketIdZero, [0xC0, 0x00, 0x32, 0x04, 0x00, 0x01, 0x61]) := by decide +kernel

/-! ### C22 -/

/-- C22, exact: `write` panics exactly for a CONNACK with an MQTT 3 return code whose body is not
too long, and it never loops. -/
theorem C22_panic_iff (p : Packet) (b : Bytes) :
    ((p.write b).1 = .panic ↔ Legacy p ∧ (body p).length ≤ maxVarint) ∧
    (p.write b).1 ≠ .diverge := by
  refine ⟨?_, write_not_diverge p b⟩
  by_cases hl : Legacy p
  · obtain ⟨c, rfl⟩ := legacy_cases hl
    have hf : ∀ q ∈ props (.ConnAck c), FitsNum q := by
      intro q hq
      have : q.id ∈ Spec.ConnAckProperties.allowed := by
        simp only [props] at hq
        cases hp : c.properties with
        | none => rw [hp] at hq; simp [optList] at hq
        | some a => rw [hp] at hq; exact ConnAckProperties.toList_allowed a q hq
      cases q <;> first | trivial | (simp [Property.id, Spec.ConnAckProperties.allowed] at this)
    have hlen := ConnAck.lenSpec c hf
    show (c.write b).1 = .panic ↔ _
    rcases connAck_legacy hl with ⟨h1, w, hw⟩ | ⟨h1, hw⟩
    · rw [hw b]
      have := hlen.2 h1
      simp [hl, maxVarint]; omega
    · rw [hw b]
      have := hlen.1
      simp [hl, maxVarint]; omega
  · simp only [hl, false_and, iff_false]
    by_cases he : Encodable p
    · obtain ⟨n, b', h⟩ := (C20_ok_iff p b).2 he
      rw [h]; simp
    · obtain ⟨e, w, -, hw⟩ := write_refuse he hl
      rw [hw b]; simp

/-- C22, partial: every other packet is written or refused. -/
theorem C22_write_total_partial (p : Packet) (b : Bytes) (hl : ¬ Legacy p) :
    (∃ n, (p.write b).1 = .ok n) ∨ (∃ e, (p.write b).1 = .err e) := by
  obtain ⟨h1, h2⟩ := C22_panic_iff p b
  cases h : (p.write b).1 with
  | ok n => exact .inl ⟨n, rfl⟩
  | err e => exact .inr ⟨e, rfl⟩
  | panic => exact absurd (h1.1 h).1 hl
  | diverge => exact absurd h h2

/-- C22 does not hold for the three MQTT 3 return codes of the enumeration. -/
theorem C22_counterexample :
    (Packet.write (.ConnAck {
      session_present := false, code := .BadClientId, properties := none }) []).1 = .panic := by decide +kernel

/-! ### C30 -/

/-- C30, partial: two packets that are written to the same bytes, or one to a beginning of the
other, are equal up to normalisation, and the bytes are equal. The hypotheses exclude only the
DISCONNECTs with an empty property record. -/
theorem C30_unambiguous_partial (p q : Packet) (n m : Nat) (w x : Bytes)
    (hp : p.write [] = (.ok n, w)) (hq : q.write [] = (.ok m, w ++ x))
    (hpe : ¬ EmptyRecord p) (hqe : ¬ EmptyRecord q) : norm p = norm q ∧ x = [] := by
  have cls : ∀ (p : Packet) (n : Nat) (w : Bytes), p.write [] = (.ok n, w) → ¬ EmptyRecord p →
      (Encodable p ∧ w = encode p) ∨ (∃ d, p = .Disconnect d ∧ d.properties = none ∧
        w = [0xE0, 0x01, disconnectCode d.reason_code, 0x00]) := by
    intro p n w h he
    by_cases hs : Sound p
    · obtain ⟨h1, -, h2⟩ := write_ok_inv h hs (fun _ => rfl)
      exact .inl ⟨h1, by simpa using h2⟩
    · obtain ⟨d, rfl⟩ := unsound_cases hs
      replace h : d.write [] = (.ok n, w) := h
      rcases unsound_emits hs with ⟨h1, -, hw⟩ | ⟨a, h1, h2, -⟩
      · rw [hw []] at h
        simp only [Prod.mk.injEq] at h
        exact .inr ⟨d, rfl, h1, by simpa using h.2.symm⟩
      · exact absurd ⟨a, h1, h2⟩ he
  have noShort : ∀ (p : Packet) (c : UInt8) (r r' : Bytes), Encodable p →
      encode p ++ r = [0xE0, 0x01, c] ++ r' → False := by
    intro p c r r' he h
    simp only [encode, frame, List.cons_append, List.append_assoc, List.cons.injEq,
      List.nil_append] at h
    have hty : typeNum p = 14 := by rw [← byte1_type, h.1]; rfl
    obtain ⟨-, hn, hbd⟩ := varintRep_unique (v' := [0x01]) (n' := 1) (r' := c :: r')
      (encode_body_rep p he) ⟨[], 1, rfl, by simp, by simp, by decide, rfl⟩ h.2
    cases p <;> first | (exfalso; revert hty; simp [typeNum]; done) | skip
    rename_i d
    simp only [body, ackTail] at hn
    have hnz : ∀ l, 1 ≤ (propSection l).length := fun l => by
      have := varint_length_pos (encProps l).length
      simp [propSection]; omega
    cases hd : d.properties with
    | none =>
      rw [hd] at hn
      simp only at hn
      split at hn
      · simp at hn
      · have := hnz []
        rw [List.length_cons] at hn; omega
    | some a =>
      rw [hd] at hn
      have := hnz (Spec.DisconnectProperties.toList a)
      simp only [List.length_cons] at hn; omega
  rcases cls p n w hp hpe with ⟨h1, rfl⟩ | ⟨d, rfl, h1, rfl⟩ <;>
    rcases cls q m _ hq hqe with ⟨h2, h3⟩ | ⟨d', rfl, h2, h3⟩
  · have := encode_inj h1 h2 (r := x) (r' := []) (by rw [h3]; simp)
    exact this
  · exact (noShort p _ x [0x00] h1 h3).elim
  · exact (noShort q (disconnectCode d.reason_code) [] ([0x00] ++ x) h2 (by rw [← h3]; simp)).elim
  · simp only [List.cons_append, List.nil_append, List.cons.injEq, true_and] at h3
    refine ⟨?_, h3.2⟩
    have : d.reason_code = d'.reason_code := by
      have e1 := DisconnectReasonCode.ofU8_ok.2 (rfl : disconnectCode d.reason_code = _)
      rw [h3.1, DisconnectReasonCode.ofU8_ok.2 rfl] at e1
      simpa using e1.symm
    simp [norm, normProps, h1, h2, this]

/-- C30 does not hold for DISCONNECTs with an empty property record: different reasons, same
bytes. -/
theorem C30_counterexample :
    let e : Mqtt.DisconnectProperties := {
      session_expiry_interval := none, reason_string := none, user_properties := [],
      server_reference := none }
    Packet.write (.Disconnect { reason_code := .ServerBusy, properties := some e }) [] =
    Packet.write (.Disconnect { reason_code := .NormalDisconnection, properties := some e }) [] := by
  decide +kernel

/-- A DISCONNECT with an empty property record becomes the plain normal disconnection; all other
packets stay as they are. -/
def _root_.Spec.plainDisconnect : Packet → Packet
  | .Disconnect d =>
    match d.properties with
    | some q => if DisconnectProperties.toList q = [] then
        .Disconnect { reason_code := .NormalDisconnection, properties := none } else .Disconnect d
    | none => .Disconnect d
  | p => p

theorem plainDisconnect_cases (p : Packet) :
    (EmptyRecord p ∧ plainDisconnect p =
      .Disconnect { reason_code := .NormalDisconnection, properties := none }) ∨
    (¬ EmptyRecord p ∧ plainDisconnect p = p) := by
  cases p
  case Disconnect d =>
    cases hd : d.properties with
    | none => right; simp [EmptyRecord, plainDisconnect, hd]
    | some q =>
      by_cases hq : DisconnectProperties.toList q = []
      · left; simp [EmptyRecord, plainDisconnect, hd, hq]
      · right; simp [EmptyRecord, plainDisconnect, hd, hq]
  all_goals exact .inr ⟨fun h => h, rfl⟩

/-- C30: what the library writes for a DISCONNECT with an empty property record is what it writes
for the plain normal disconnection, whatever the reason was. -/
theorem C30_empty_record (p : Packet) (b : Bytes) : p.write b = (plainDisconnect p).write b := by
  rcases plainDisconnect_cases p with ⟨he, h⟩ | ⟨-, h⟩
  · rw [h]
    cases p
    case Disconnect d =>
      obtain ⟨q, hd, hq⟩ := he
      have hs : ¬ Sound (.Disconnect d) := by simp [Sound, hd, hq]
      rcases unsound_emits hs with ⟨h1, -, -⟩ | ⟨_, -, -, hw⟩
      · rw [hd] at h1; cases h1
      · refine (hw b).trans (Eq.symm ?_)
        have he : Encodable (.Disconnect {
            reason_code := .NormalDisconnection, properties := none }) :=
          ⟨by simp [fields, texts], by simp [props, optList], by simp [body, ackTail, disconnectCode],
            trivial⟩
        rw [write_encode he rfl (fun h => absurd h id)]
        simp [encode, frame, body, ackTail, disconnectCode, varint_zero, byte1]
    all_goals exact he.elim
  · rw [h]

/-- C30, for all packets: two packets that are written to the same bytes, or one to a beginning of
the other, are equal up to normalisation after every DISCONNECT with an empty property record is
replaced by the plain normal disconnection, and the bytes are equal. With `C30_empty_record` this
says exactly which reasons are lost; no packet's bytes are ever a beginning of another's. -/
theorem C30_all (p q : Packet) (n m : Nat) (w x : Bytes)
    (hp : p.write [] = (.ok n, w)) (hq : q.write [] = (.ok m, w ++ x)) :
    norm (plainDisconnect p) = norm (plainDisconnect q) ∧ x = [] := by
  have hne : ∀ p, ¬ EmptyRecord (plainDisconnect p) := fun p => by
    rcases plainDisconnect_cases p with ⟨-, h⟩ | ⟨h0, h⟩
    · rw [h]; rintro ⟨q, hq, -⟩; cases hq
    · rw [h]; exact h0
  exact C30_unambiguous_partial _ _ n m w x ((C30_empty_record p []).symm.trans hp)
    ((C30_empty_record q []).symm.trans hq) (hne p) (hne q)

/-! ### C31 -/

/-- C31, partial: the bytes appended are the MQTT 5 encoding of the packet, and their number is
returned. The hypotheses exclude the DISCONNECTs of C08 that are written wrongly, and a CONNECT
into a non-empty buffer (C11). -/
theorem C31_conformance_partial (p : Packet) (b b' : Bytes) (n : Nat) (h : p.write b = (.ok n, b'))
    (hs : Sound p) (hb : IsConnect p → b = []) : b' = b ++ encode p ∧ n = (encode p).length :=
  have h' := write_ok_inv h hs hb
  ⟨h'.2.2, h'.2.1⟩

/-- C31, exactly, for all packets but CONNECT: the encoding is appended if and only if the packet is
not one of the DISCONNECTs of C08. -/
theorem C31_iff (p : Packet) (b b' : Bytes) (n : Nat) (h : p.write b = (.ok n, b'))
    (hc : ¬ IsConnect p) : b' = b ++ encode p ↔ Sound p := by
  constructor
  · intro hb
    refine Classical.byContradiction fun hs => ?_
    have h2 : varint 2 = [2] := by rw [varint]; rfl
    obtain ⟨d, rfl⟩ := unsound_cases hs
    replace h : d.write b = (.ok n, b') := h
    rcases unsound_emits hs with ⟨h1, hr, hw⟩ | ⟨q, h1, hq, hw⟩
    · rw [hw b] at h
      have he := hb.symm.trans (Prod.ext_iff.1 h).2.symm
      rw [List.append_cancel_left_eq] at he
      have h0 : disconnectCode d.reason_code ≠ 0 := fun h0 => hr ((Disconnect.code_zero _).1 h0)
      simp [encode, frame, body, h1, ackTail, h0, propSection, encProps, varint_zero, h2] at he
    · rw [hw b] at h
      have he := hb.symm.trans (Prod.ext_iff.1 h).2.symm
      rw [List.append_cancel_left_eq] at he
      simp [encode, frame, body, h1, ackTail, hq, propSection, encProps, varint_zero, h2] at he
  · intro hs
    exact (C31_conformance_partial p b b' n h hs (fun h => absurd h hc)).1

theorem encode_flags (c : Connect) (will : Option LastWill) (login : Option Login) :
    (encode (.Connect c will login))[flagsIndex (.Connect c will login)]? =
      some (UInt8.ofNat (connectFlags c will login)) := by
  unfold encode frame flagsIndex
  rw [show 1 + (varint (body (.Connect c will login)).length).length + 6 + 1 =
    ((varint (body (.Connect c will login)).length).length + 7) + 1 by omega,
    List.getElem?_cons_succ, List.getElem?_append_right (by omega), Nat.add_sub_cancel_left]
  rfl

/-- C31, exactly, for CONNECT: the encoding is appended if and only if the buffer was empty, or there
is neither will nor login in the flags and the byte that is overwritten happens to be the same. -/
theorem C31_connect_iff (c : Connect) (will : Option LastWill) (login : Option Login)
    (he : Encodable (.Connect c will login)) (b : Bytes) :
    ((Packet.Connect c will login).write b).2 = b ++ encode (.Connect c will login) ↔
      b = [] ∨ (connectFlags c will login = 2 * bit c.clean_start ∧
        (b ++ encode (.Connect c will login))[flagsIndex (.Connect c will login)]? =
          some (UInt8.ofNat (connectFlags c will login))) := by
  rw [C11_connect c will login he b]
  have hf := encode_flags c will login
  have hlt : connectFlags c will login < 256 := by
    unfold connectFlags bit
    rcases will with _ | w <;> rcases login with _ | l
    all_goals try (cases w.qos)
    all_goals simp only [qosNum]
    all_goals (repeat' split) <;> omega
  have hlc : 2 * bit c.clean_start < 256 := by unfold bit; split <;> omega
  have hinj : UInt8.ofNat (connectFlags c will login) = UInt8.ofNat (2 * bit c.clean_start) ↔
      connectFlags c will login = 2 * bit c.clean_start := by
    constructor
    · intro h
      have := congrArg UInt8.toNat h
      rw [UInt8.toNat_ofNat', UInt8.toNat_ofNat', Nat.mod_eq_of_lt hlt, Nat.mod_eq_of_lt hlc] at this
      exact this
    · intro h; rw [h]
  rw [← hinj]
  generalize UInt8.ofNat (connectFlags c will login) = f at *
  generalize UInt8.ofNat (2 * bit c.clean_start) = g at *
  generalize flagsIndex (.Connect c will login) = i at *
  generalize encode (.Connect c will login) = e at *
  have hi : i < e.length := by
    refine Classical.byContradiction fun h => ?_
    rw [List.getElem?_eq_none (by omega)] at hf
    cases hf
  have hse : e.set i f = e := by
    apply List.ext_getElem?
    intro j
    by_cases hj : i = j
    · subst hj; rw [List.getElem?_set_self hi, hf]
    · rw [List.getElem?_set_ne hj]
  constructor
  · intro h
    by_cases hb : b = []
    · exact .inl hb
    · right
      have hbl : 0 < b.length := List.length_pos_iff.2 hb
      have h1 := congrArg (fun l : Bytes => l[b.length + i]?) h
      simp only at h1
      rw [List.getElem?_set_ne (by omega), List.getElem?_append_right (by omega),
        List.getElem?_append_right (by omega), Nat.add_sub_cancel_left,
        List.getElem?_set_self hi, hf] at h1
      refine ⟨by cases h1; rfl, ?_⟩
      rw [← h, List.getElem?_set_self (by simp; omega)]
  · rintro (rfl | ⟨hfg, h⟩)
    · simp only [List.nil_append, List.set_set, hse]
    · rw [← hfg, hse]
      apply List.ext_getElem?
      intro j
      by_cases hj : i = j
      · subst hj; rw [List.getElem?_set_self (by simp; omega), h]
      · rw [List.getElem?_set_ne hj]

/-- Both cases occur: a CONNECT behind a PINGREQ whose overwritten byte differs. -/
example :
    let c : Connect := { keep_alive := 60, client_id := [], clean_start := true, properties := none }
    ((Packet.Connect c none none).write [0xC0, 0]).2 ≠
      [0xC0, 0] ++ ((Packet.Connect c none none).write []).2 ∧
    ((Packet.Connect c none none).write [1, 1, 1, 1, 1, 1, 1, 1, 1, 2]).2 =
      [1, 1, 1, 1, 1, 1, 1, 1, 1, 2] ++ ((Packet.Connect c none none).write []).2 := by
  decide +kernel

/-- C31 does not hold in full: a DISCONNECT whose announced remaining length is 1 while two bytes
follow is no MQTT 5 packet. -/
theorem C31_counterexample :
    Packet.write (.Disconnect { reason_code := .ServerBusy, properties := none }) [] =
      (.ok 3, [0xE0, 0x01, 0x89, 0x00]) ∧
    encode (.Disconnect { reason_code := .ServerBusy, properties := none }) =
      [0xE0, 0x02, 0x89, 0x00] := by
  refine ⟨by decide +kernel, ?_⟩
  have h2 : varint 2 = [2] := by rw [varint]; rfl
  simp [encode, frame, byte1, body, ackTail, propSection, encProps, varint_zero, disconnectCode, h2]

example : Sound Sample.connAck ∧ Sample.connAck.write [] = (.ok 17, Sample.connAckBytes) :=
  ⟨trivial, by decide +kernel⟩

end Props
