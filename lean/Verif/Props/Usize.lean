import Verif.Proofs.Usize
import Verif.Proofs.UsizeEnc
import Verif.Proofs.UsizeRead
import Verif.Proofs.UsizeWrite
import Verif.Props.Layout
/-
C50: no overflow in the decoder. `checkW`, `lengthW` and `readPropsW` (file `Model/Usize.lean`) are
the places where the decoder computes with `usize`, with Rust's overflow checks for a `usize` of `w`
bits; they do the same as the unbounded functions the other theorems are about. `Packet.readW`
(`Model/UsizeRead.lean`) is the whole decoder with these.
-/
namespace Props

open Mqtt Spec

/-- C50: variable byte integers and the fixed header, whatever the bytes are. -/
theorem C50_header (w : Nat) (hw : 32 ≤ w) (b : Bytes) (max : Option Nat) :
    lengthW w b = length b ∧ parse_fixed_headerW w b = parse_fixed_header b ∧
      checkW w b max = check b max :=
  ⟨lengthW_eq hw b, parse_fixed_headerW_eq hw b, checkW_eq hw b max⟩

/-- C50: the thirteen property sections, whatever the bytes are. -/
theorem C50_sections (w : Nat) (hw : 32 ≤ w) (mode : StrMode) :
    readPropsW w (ConnectProperties.step mode) ConnectProperties.init = ConnectProperties.read mode ∧
    readPropsW w (LastWillProperties.step mode) LastWillProperties.init =
      LastWillProperties.read mode ∧
    readPropsW w (ConnAckProperties.step mode) ConnAckProperties.init = ConnAckProperties.read mode ∧
    readPropsW w (PublishProperties.step mode) PublishProperties.init = PublishProperties.read mode ∧
    readPropsW w (PubAckProperties.step mode) PubAckProperties.init = PubAckProperties.read mode ∧
    readPropsW w (PubRecProperties.step mode) PubRecProperties.init = PubRecProperties.read mode ∧
    readPropsW w (PubRelProperties.step mode) PubRelProperties.init = PubRelProperties.read mode ∧
    readPropsW w (PubCompProperties.step mode) PubCompProperties.init = PubCompProperties.read mode ∧
    readPropsW w (SubscribeProperties.step mode) SubscribeProperties.init =
      SubscribeProperties.read mode ∧
    readPropsW w (SubAckProperties.step mode) SubAckProperties.init = SubAckProperties.read mode ∧
    readPropsW w (UnsubscribeProperties.step mode) UnsubscribeProperties.init =
      UnsubscribeProperties.read mode ∧
    readPropsW w (UnsubAckProperties.step mode) UnsubAckProperties.init =
      UnsubAckProperties.read mode ∧
    readPropsW w (DisconnectProperties.step mode) DisconnectProperties.init =
      DisconnectProperties.extract mode :=
  ⟨readPropsW_eq hw (ConnectProperties.stepSpec mode) rfl,
    readPropsW_eq hw (LastWillProperties.stepSpec mode) rfl,
    readPropsW_eq hw (ConnAckProperties.stepSpec mode) rfl,
    readPropsW_eq hw (PublishProperties.stepSpec mode) rfl,
    readPropsW_eq hw (PubAckProperties.stepSpec mode) rfl,
    readPropsW_eq hw (PubRecProperties.stepSpec mode) rfl,
    readPropsW_eq hw (PubRelProperties.stepSpec mode) rfl,
    readPropsW_eq hw (PubCompProperties.stepSpec mode) rfl,
    readPropsW_eq hw (SubscribeProperties.stepSpec mode) rfl,
    readPropsW_eq hw (SubAckProperties.stepSpec mode) rfl,
    readPropsW_eq hw (UnsubscribeProperties.stepSpec mode) rfl,
    readPropsW_eq hw (UnsubAckProperties.stepSpec mode) rfl,
    readPropsW_eq hw (DisconnectProperties.stepSpec mode) rfl⟩

/-- C50: `Packet::read` with all overflow checks does the same as with unbounded integers, on every
input: no check ever fails. -/
theorem C50_read (w : Nat) (hw : 32 ≤ w) (mode : StrMode) (max : Option Nat) (b : Bytes) :
    Packet.readW w mode max b = Packet.read mode max b :=
  congrFun (Packet.readW_eq hw mode max) b

/-- C50: nor does one fail in a reader of one packet type that is called directly, whatever header it
is given, even one that does not belong to the bytes. -/
theorem C50_typed (w : Nat) (hw : 32 ≤ w) (mode : StrMode) (fh : FixedHeader) (b : Bytes) :
    Connect.readW w mode fh b = Connect.read mode fh b ∧
    ConnAck.readW w mode fh b = ConnAck.read mode fh b ∧
    Publish.readW w mode fh b = Publish.read mode fh b ∧
    PubAck.readW w mode fh b = PubAck.read mode fh b ∧
    PubRec.readW w mode fh b = PubRec.read mode fh b ∧
    PubRel.readW w mode fh b = PubRel.read mode fh b ∧
    PubComp.readW w mode fh b = PubComp.read mode fh b ∧
    Subscribe.readW w mode fh b = Subscribe.read mode fh b ∧
    SubAck.readW w mode fh b = SubAck.read mode fh b ∧
    Unsubscribe.readW w mode fh b = Unsubscribe.read mode fh b ∧
    UnsubAck.readW w mode fh b = UnsubAck.read mode fh b ∧
    Disconnect.readW w mode fh b = Disconnect.read mode fh b :=
  ⟨congrFun (Connect.readW_eq hw mode fh) b, congrFun (ConnAck.readW_eq hw mode fh) b,
    congrFun (Publish.readW_eq hw mode fh) b, congrFun (PubAck.readW_eq hw mode fh) b,
    congrFun (PubRec.readW_eq hw mode fh) b, congrFun (PubRel.readW_eq hw mode fh) b,
    congrFun (PubComp.readW_eq hw mode fh) b, congrFun (Subscribe.readW_eq hw mode fh) b,
    congrFun (SubAck.readW_eq hw mode fh) b, congrFun (Unsubscribe.readW_eq hw mode fh) b,
    congrFun (UnsubAck.readW_eq hw mode fh) b, congrFun (Disconnect.readW_eq hw mode fh) b⟩

/-- C50: a fixed header made by hand. `FixedHeader::new` followed by `frame_length` gives one more than
the sum of the two numbers, unless that is no `usize` of `w` bits; then a build with overflow checks
panics in one of the two. For a header returned by `check` or `parse_fixed_header` neither happens. -/
theorem C50_frame_length (m : Build) (w : Nat) (b1 : UInt8) (k n : Nat) :
    Checked m w (FixedHeader.newB m w b1 k n >>= FixedHeader.frame_lengthB m w) (k + 1 + n) ∧
    (k + 1 < 2 ^ w → FixedHeader.newB m w b1 k n = .ok (FixedHeader.new b1 k n)) ∧
    (32 ≤ w → ∀ (b : Bytes) (max : Option Nat) (fh : FixedHeader),
      parse_fixed_header b = .ok fh ∨ check b max = .ok fh →
        fh.frame_lengthB m w = .ok fh.frame_length) := by
  refine ⟨⟨fun h => ?_, fun h hm => ?_⟩, fun h => ?_, fun hw b max fh h => ?_⟩
  · rw [FixedHeader.newB, addB.eq_def, if_pos (by omega)]
    exact if_pos h
  · subst hm
    by_cases hk : k + 1 < 2 ^ w
    · rw [FixedHeader.newB, addB.eq_def, if_pos hk]
      show addB .debug w (k + 1) n = _
      rw [addB, if_neg (by omega)]
    · rw [FixedHeader.newB, addB, if_neg hk]
      rfl
  · rw [FixedHeader.newB, addB.eq_def, if_pos h]
    rfl
  · have hp : parse_fixed_header b = .ok fh := by
      rcases h with h | h
      · exact h
      · unfold check at h
        cases hp : parse_fixed_header b with
        | ok fh' =>
          have : fh' = fh := by
            simp only [hp] at h
            revert h
            repeat' split
            all_goals simp
          rw [this]
        | _ => simp [hp] at h
    have hb := parse_fixed_header_bounds hp
    have := two_pow_le hw
    exact if_pos (by omega)

/-- The checks are those of Rust: a sum of 2^w, a negative difference and a shift by the whole width
panic, a shift drops the bits that leave the word. -/
example : addW 32 4294967295 1 = .panic ∧ addW 32 4294967294 1 = .ok 4294967295 ∧
    subW 1 2 = .panic ∧ subW 2 2 = .ok 0 ∧ shlW 32 1 32 = .panic ∧
    shlW 32 3 31 = .ok 2147483648 := by decide +kernel

/-- The bound matters: the header of a frame of 2097151 bytes is misread with 16 bits. -/
example : Packet.readW 16 .utf8 none [0x30, 0xFF, 0xFF, 0x7F] ≠
    Packet.read .utf8 none [0x30, 0xFF, 0xFF, 0x7F] := by decide +kernel

example : Packet.readW 64 .utf8 none [0xC0, 0, 0xC0] = (.ok .PingReq, [0xC0]) := by decide +kernel

/-- C50: what `write` computes when it succeeds: the announced length, of which all other lengths
are parts, and the number returned. -/
theorem C50_written (p : Packet) (b b' : Bytes) (n : Nat) (h : p.write b = (.ok n, b')) :
    announced p ≤ 268435455 ∧ n ≤ 268435460 := by
  obtain ⟨w, ⟨ws, hw, -⟩, rfl, -⟩ := (C49_ok p b b' n).1 h
  have ha : announced p ≤ 268435455 := by
    refine Classical.byContradiction fun hc => ?_
    have := C49_too_long p b (by unfold maxVarint; omega)
    rw [this] at h; simp at h
  have := varint_length_le (n := announced p) (k := 3) (by omega)
  omega

/-- The bound matters: with 16 bits the same frame header panics. -/
example : checkW 32 [0x30, 0xFF, 0xFF, 0x7F] none = .err (.InsufficientBytes 2097151) ∧
    checkW 16 [0x30, 0xFF, 0xFF, 0x7F] none ≠ check [0x30, 0xFF, 0xFF, 0x7F] none := by
  decide +kernel

/-! ### C52: the encoder -/

/-- C52: the size that a packet reports is its true size in both kinds of build, unless that is no
`usize` of `w` bits; then a build with overflow checks panics. -/
theorem C52_size (m : Build) (w : Nat) (hw : 32 ≤ w) :
    (∀ p : ConnAck, Checked m w (p.sizeB m w) p.size) ∧
    (∀ p : Publish, Checked m w (p.sizeB m w) p.size) ∧
    (∀ p : PubAck, Checked m w (p.sizeB m w) p.size) ∧
    (∀ p : PubRec, Checked m w (p.sizeB m w) p.size) ∧
    (∀ p : PubRel, Checked m w (p.sizeB m w) p.size) ∧
    (∀ p : PubComp, Checked m w (p.sizeB m w) p.size) ∧
    (∀ p : Subscribe, Checked m w (p.sizeB m w) p.size) ∧
    (∀ p : SubAck, Checked m w (p.sizeB m w) p.size) ∧
    (∀ p : Unsubscribe, Checked m w (p.sizeB m w) p.size) ∧
    (∀ p : UnsubAck, Checked m w (p.sizeB m w) p.size) ∧
    (∀ p : Disconnect, Checked m w (p.sizeB m w) p.size) := by
  have := two_pow_gt hw
  refine ⟨fun p => checked_size hw (p.checked hw), fun p => checked_size hw (p.checked hw),
    fun p => ?_, fun p => checked_size hw (p.checked hw), fun p => ?_, fun p => ?_,
    fun p => checked_size hw (p.checked hw), fun p => checked_size hw (p.checked hw),
    fun p => checked_size hw (p.checked hw), fun p => checked_size hw (p.checked hw), fun p => ?_⟩
  · unfold PubAck.sizeB PubAck.size
    split
    · exact .pure (by omega) rfl
    · exact checked_size hw (p.checked hw)
  · unfold PubRel.sizeB PubRel.size
    split
    · exact .pure (by omega) rfl
    · exact checked_size hw (p.checked hw)
  · unfold PubComp.sizeB PubComp.size
    split
    · exact .pure (by omega) rfl
    · exact checked_size hw (p.checked hw)
  · unfold Disconnect.sizeB Disconnect.size
    refine .bind (p.checked hw) (fun h => ?_) ?_
    · show Checked m w (if _ then _ else _) (if _ then _ else _)
      split
      · exact .pure h rfl
      · exact (checked_sum (by omega) _).of_eq (by
          show 1 + [len_len p.len, p.len].sum = 1 + len_len p.len + p.len
          simp; omega)
    · show p.len ≤ if p.len = 2 then p.len else 1 + len_len p.len + p.len
      split <;> omega

theorem len_announced :
    (∀ c will l, Connect.len c will l = announced (.Connect c will l)) ∧
    (∀ p : ConnAck, p.len = announced (.ConnAck p)) ∧
    (∀ p : Publish, p.len = announced (.Publish p)) ∧
    (∀ p : PubAck, p.len = announced (.PubAck p)) ∧
    (∀ p : PubRec, p.len = announced (.PubRec p)) ∧
    (∀ p : PubRel, p.len = announced (.PubRel p)) ∧
    (∀ p : PubComp, p.len = announced (.PubComp p)) ∧
    (∀ p : Subscribe, p.len = announced (.Subscribe p)) ∧
    (∀ p : SubAck, p.len = announced (.SubAck p)) ∧
    (∀ p : Unsubscribe, p.len = announced (.Unsubscribe p)) ∧
    (∀ p : UnsubAck, p.len = announced (.UnsubAck p)) ∧
    (∀ p : Disconnect, (if p.len = 2 then 0 else p.len) = announced (.Disconnect p)) := by
  refine ⟨fun c will l => ?_, fun p => ?_, fun p => ?_, fun p => ?_, fun p => ?_, fun p => ?_,
    fun p => ?_, fun p => ?_, fun p => ?_, fun p => ?_, fun p => ?_, fun p => ?_⟩
  · rw [announced_size id]
    unfold Connect.len
    rw [size_opt ConnectProperties.len_eq]
    cases will <;> cases l <;>
      simp [bodyPieces, Piece.size, LastWill.size_eq, Login.size_eq, Connect.protocolName] <;> omega
  · rw [announced_size id, ConnAck.len, size_opt ConnAckProperties.len_eq]
    simp [bodyPieces, Piece.size]; omega
  · rw [announced_size id, Publish.len, size_opt PublishProperties.len_eq]
    by_cases hq : p.qos = .AtMostOnce
    · simp [bodyPieces, Piece.size, hq]; omega
    · by_cases hk : p.pkid = 0 <;> simp [bodyPieces, Piece.size, hq, hk] <;> omega
  · rw [announced_size id, PubAck.len, show bodyPieces (.PubAck p) = .raw (u16 p.pkid) ::
      ackPieces (pubAckCode p.reason) Spec.PubAckProperties.toList p.properties from rfl]
    by_cases h : p.reason = .Success ∧ p.properties = none
    · rw [if_pos h, ack_short ⟨(PubAck.code_zero _).2 h.1, h.2⟩]; rfl
    · rw [if_neg h, ack_long (by rw [PubAck.code_zero]; exact h), size_opt PubAckProperties.len_eq]
      simp [Piece.size]; omega
  · rw [announced_size id, PubRec.len, show bodyPieces (.PubRec p) = .raw (u16 p.pkid) ::
      ackPieces (pubRecCode p.reason) Spec.PubRecProperties.toList p.properties from rfl]
    by_cases h : p.reason = .Success ∧ p.properties = none
    · rw [if_pos h, ack_short ⟨(PubRec.code_zero _).2 h.1, h.2⟩]; rfl
    · rw [if_neg h, ack_long (by rw [PubRec.code_zero]; exact h), size_opt PubRecProperties.len_eq]
      simp [Piece.size]; omega
  · rw [announced_size id, PubRel.len, show bodyPieces (.PubRel p) = .raw (u16 p.pkid) ::
      ackPieces (pubRelCode p.reason) Spec.PubRelProperties.toList p.properties from rfl]
    by_cases h : p.reason = .Success ∧ p.properties = none
    · rw [if_pos h, ack_short ⟨(PubRel.code_zero _).2 h.1, h.2⟩]; rfl
    · rw [if_neg h, ack_long (by rw [PubRel.code_zero]; exact h), size_opt PubRelProperties.len_eq]
      simp [Piece.size]; omega
  · rw [announced_size id, PubComp.len, show bodyPieces (.PubComp p) = .raw (u16 p.pkid) ::
      ackPieces (pubCompCode p.reason) Spec.PubCompProperties.toList p.properties from rfl]
    by_cases h : p.reason = .Success ∧ p.properties = none
    · rw [if_pos h, ack_short ⟨(PubComp.code_zero _).2 h.1, h.2⟩]; rfl
    · rw [if_neg h, ack_long (by rw [PubComp.code_zero]; exact h), size_opt PubCompProperties.len_eq]
      simp [Piece.size]; omega
  · rw [announced_size id, Subscribe.len, sub_foldl, size_opt SubscribeProperties.len_eq]
    simp [bodyPieces, Piece.size, sizes_subs]; omega
  · rw [announced_size id, SubAck.len, size_opt SubAckProperties.len_eq]
    simp [bodyPieces, Piece.size]; omega
  · rw [announced_size id, Unsubscribe.len, unsub_foldl, size_opt UnsubscribeProperties.len_eq]
    simp [bodyPieces, Piece.size, sizes_filters]; omega
  · rw [announced_size id, UnsubAck.len, size_opt UnsubAckProperties.len_eq]
    simp [bodyPieces, Piece.size]; omega
  · obtain ⟨rc, o⟩ := p
    cases o with
    | none =>
      by_cases hr : rc = .NormalDisconnection
      · subst hr
        rw [announced_size (by rintro ⟨-, h⟩; exact h rfl)]
        rfl
      · have ho : Overlong (.Disconnect { reason_code := rc, properties := none }) := ⟨rfl, hr⟩
        rw [announced, if_pos ho]
        simp [Disconnect.len, hr]
    | some q =>
      have hl : Disconnect.len { reason_code := rc, properties := some q } =
          1 + (len_len q.len + q.len) := by simp [Disconnect.len]
      rw [announced_size (by rintro ⟨h, -⟩; cases h), hl]
      have h1 := (len_len_le q.len).1
      by_cases hq : Spec.DisconnectProperties.toList q = []
      · have : q.len = 0 := by rw [DisconnectProperties.len_eq, hq]; rfl
        simp [bodyPieces, hq, optList, this, len_len]
      · have := gLen_pos hq
        rw [← DisconnectProperties.len_eq] at this
        rw [if_neg (by omega)]
        simp [bodyPieces, hq, ackPieces, optList, sizes_cons, Piece.size, size_section,
          DisconnectProperties.len_eq]

/-- C52: the remaining length that `write` puts into the header is the one of the layout (C49) in
both kinds of build, unless that is no `usize` of `w` bits; then a build with overflow checks
panics. -/
theorem C52_announced (m : Build) (w : Nat) (hw : 32 ≤ w) (p : Packet) :
    Checked m w (p.remainingB m w) (announced p) := by
  obtain ⟨h1, h2, h3, h4, h5, h6, h7, h8, h9, h10, h11, h12⟩ := len_announced
  have := two_pow_gt hw
  cases p with
  | Connect c will l => exact (c.checked hw will l).of_eq (h1 c will l)
  | ConnAck p => exact (p.checked hw).of_eq (h2 p)
  | Publish p => exact (p.checked hw).of_eq (h3 p)
  | PubAck p => exact (p.checked hw).of_eq (h4 p)
  | PubRec p => exact (p.checked hw).of_eq (h5 p)
  | PubRel p => exact (p.checked hw).of_eq (h6 p)
  | PubComp p => exact (p.checked hw).of_eq (h7 p)
  | Subscribe p => exact (p.checked hw).of_eq (h8 p)
  | SubAck p => exact (p.checked hw).of_eq (h9 p)
  | Unsubscribe p => exact (p.checked hw).of_eq (h10 p)
  | UnsubAck p => exact (p.checked hw).of_eq (h11 p)
  | PingReq => exact .pure (by omega) rfl
  | PingResp => exact .pure (by omega) rfl
  | Disconnect p =>
    rw [← h12 p]
    by_cases h : p.len = 2
    · rw [if_pos h, Packet.remainingB, (p.checked (m := m) hw).1 (by omega)]
      show Checked m w (if _ then _ else _) 0
      rw [if_pos h]
      exact .pure (by omega) rfl
    · rw [if_neg h]
      refine .bind (p.checked hw) (fun h' => ?_) (Nat.le_refl _)
      rw [if_neg h]
      exact .pure h' rfl

/-- C52: `Packet.writeB` (`Model/UsizeWrite.lean`) is the whole encoder with `usize` of `w` bits. It
returns and appends what the encoder without bound does, in both kinds of build, if the remaining
length of the layout is a `usize`. -/
theorem C52_write (m : Build) (w : Nat) (hw : 32 ≤ w) (p : Packet) (h : announced p < 2 ^ w)
    (b : Bytes) : p.writeB m w b = p.write b := by
  obtain ⟨h1, h2, h3, h4, h5, h6, h7, h8, h9, h10, h11, h12⟩ := len_announced
  have h0 := two_pow_gt hw
  cases p with
  | Connect c will l => exact congrFun (c.writeB_eq hw will l (h1 c will l ▸ h)) b
  | ConnAck p => exact congrFun (p.writeB_eq hw (h2 p ▸ h)) b
  | Publish p => exact congrFun (p.writeB_eq hw (h3 p ▸ h)) b
  | PubAck p => exact congrFun (p.writeB_eq hw (h4 p ▸ h)) b
  | PubRec p => exact congrFun (p.writeB_eq hw (h5 p ▸ h)) b
  | PubRel p => exact congrFun (p.writeB_eq hw (h6 p ▸ h)) b
  | PubComp p => exact congrFun (p.writeB_eq hw (h7 p ▸ h)) b
  | Subscribe p => exact congrFun (p.writeB_eq hw (h8 p ▸ h)) b
  | SubAck p => exact congrFun (p.writeB_eq hw (h9 p ▸ h)) b
  | Unsubscribe p => exact congrFun (p.writeB_eq hw (h10 p ▸ h)) b
  | UnsubAck p => exact congrFun (p.writeB_eq hw (h11 p ▸ h)) b
  | PingReq => rfl
  | PingResp => rfl
  | Disconnect p =>
    refine congrFun (p.writeB_eq hw ?_) b
    rw [← h12 p] at h
    split at h <;> omega

/-- C52: if it is not, the encoder of a build with overflow checks panics. -/
theorem C52_write_panics (w : Nat) (hw : 32 ≤ w) (p : Packet) (h : 2 ^ w ≤ announced p) (b : Bytes) :
    (p.writeB .debug w b).1 = .panic := by
  obtain ⟨h1, h2, h3, h4, h5, h6, h7, h8, h9, h10, h11, h12⟩ := len_announced
  have h0 := two_pow_gt hw
  cases p with
  | Connect c will l => exact c.writeB_panic hw will l (h1 c will l ▸ h) b
  | ConnAck p => exact p.writeB_panic hw (h2 p ▸ h) b
  | Publish p => exact p.writeB_panic hw (h3 p ▸ h) b
  | PubAck p => exact p.writeB_panic hw (h4 p ▸ h) b
  | PubRec p => exact p.writeB_panic hw (h5 p ▸ h) b
  | PubRel p => exact p.writeB_panic hw (h6 p ▸ h) b
  | PubComp p => exact p.writeB_panic hw (h7 p ▸ h) b
  | Subscribe p => exact p.writeB_panic hw (h8 p ▸ h) b
  | SubAck p => exact p.writeB_panic hw (h9 p ▸ h) b
  | Unsubscribe p => exact p.writeB_panic hw (h10 p ▸ h) b
  | UnsubAck p => exact p.writeB_panic hw (h11 p ▸ h) b
  | PingReq => exact absurd (show 2 ^ w ≤ 0 from h) (by omega)
  | PingResp => exact absurd (show 2 ^ w ≤ 0 from h) (by omega)
  | Disconnect p =>
    refine p.writeB_panic hw ?_ b
    rw [← h12 p] at h
    split at h <;> omega

/-- The bound is sharp. A PUBLISH whose payload has exactly as many bytes that the sum is 2^w: a
build with overflow checks panics, and a build without them announces 0 bytes. -/
theorem C52_sharp (w : Nat) (hw : 32 ≤ w) :
    let p : Publish := {
      dup := false, qos := .AtMostOnce, retain := false, topic := [0x74], pkid := 0,
      payload := List.replicate (2 ^ w - 4) 0, properties := none }
    Packet.remainingB .debug w (.Publish p) = .panic ∧
    Packet.remainingB .release w (.Publish p) = .ok 0 ∧ announced (.Publish p) = 2 ^ w := by
  have h0 := two_pow_gt hw
  intro p
  have ha : announced (.Publish p) = 2 ^ w := by
    rw [← len_announced.2.2.1]
    have h1 : p.len = 4 + (List.replicate (2 ^ w - 4) (0 : UInt8)).length := rfl
    rw [h1, List.length_replicate]; omega
  refine ⟨(C52_announced .debug w hw (.Publish p)).2 (by omega) rfl, ?_, ha⟩
  have e : Packet.remainingB .release w (.Publish p) = addB .release w 4 (2 ^ w - 4) := by
    have hl : (List.replicate (2 ^ w - 4) (0 : UInt8)).length = 2 ^ w - 4 := List.length_replicate
    show Publish.lenB .release w p = _
    unfold Publish.lenB
    rw [(checked_sum (m := .release) (a := 2) (by omega) [p.topic.length]).1
      (show 2 + [1].sum < 2 ^ w by simp; omega)]
    show (optPropsLenB .release w (PublishProperties.lenB .release w) none (2 + [1].sum) >>= _) = _
    rw [((checked_optProps (m := .release) hw (PublishProperties.checked hw) none
      (2 + [1].sum)).1 (show 2 + [1].sum + 1 < 2 ^ w by simp; omega))]
    show addB .release w (2 + [1].sum + 1) p.payload.length = _
    rw [show p.payload.length = 2 ^ w - 4 from hl]
    rfl
  rw [e, addB, if_neg (by omega), show 4 + (2 ^ w - 4) = 2 ^ w by omega]
  simp

/-- Both hypotheses occur: the packet of `C52_sharp` panics, its neighbour with one byte less does
not. -/
example (w : Nat) (hw : 32 ≤ w) (b : Bytes) :
    let p : Nat → Packet := fun n => .Publish {
      dup := false, qos := .AtMostOnce, retain := false, topic := [0x74], pkid := 0,
      payload := List.replicate n 0, properties := none }
    (Packet.writeB .debug w (p (2 ^ w - 4)) b).1 = .panic ∧
    Packet.writeB .debug w (p (2 ^ w - 5)) b = (p (2 ^ w - 5)).write b := by
  have h0 := two_pow_gt hw
  intro p
  have ha : ∀ n, announced (p n) = 4 + n := by
    intro n
    show announced (.Publish _) = _
    rw [← len_announced.2.2.1]
    show 4 + (List.replicate n (0 : UInt8)).length = _
    rw [List.length_replicate]
  exact ⟨C52_write_panics w hw _ (by rw [ha]; omega) b,
    C52_write .debug w hw _ (by rw [ha]; omega) b⟩

/-- A small packet: both kinds of build compute its length with 32 bits. -/
example (m : Build) : Packet.remainingB m 32 (.PubAck {
      pkid := 1, reason := .NotAuthorized,
      properties := some { reason_string := some [0x6E, 0x6F], user_properties := [([0x61], [0x62])] } })
    = .ok 16 := by
  have h : announced (.PubAck {
      pkid := 1, reason := .NotAuthorized,
      properties := some { reason_string := some [0x6E, 0x6F], user_properties := [([0x61], [0x62])] } })
    = 16 := by decide +kernel
  rw [← h]
  exact (C52_announced m 32 (by omega) _).1 (by rw [h]; decide)

end Props
