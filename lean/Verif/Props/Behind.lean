import Verif.Proofs.Behind
import Verif.Props.Writing
/-
C11, C12: a CONNECT written behind other bytes, exactly.
-/
namespace Props

open Mqtt Spec

/-- What stands in the buffer behind `b` after `p` was written. -/
def behind (p : Packet) (b : Bytes) : Bytes := (p.write b).2.drop b.length

/-- No will, and no user name and no password. -/
def Bare (will : Option LastWill) (login : Option Login) : Prop :=
  will = none ∧ ∀ l, login = some l → l.username = [] ∧ l.password = []

theorem bare_flags {c : Connect} {will : Option LastWill} {login : Option Login} :
    Bare will login ↔
      UInt8.ofNat (connectFlags c will login) = UInt8.ofNat (2 * bit c.clean_start) := by
  have hc := bit_lt c.clean_start
  constructor
  · rintro ⟨rfl, hl⟩
    cases login with
    | none => simp [connectFlags]
    | some l =>
      obtain ⟨h1, h2⟩ := hl l rfl
      simp [connectFlags, h1, h2, bit]
  · intro h
    have h1 := congrArg UInt8.toNat h
    have h0 : (UInt8.ofNat (2 * bit c.clean_start)).toNat = 2 * bit c.clean_start :=
      ofNat_small (by omega)
    have hlt : connectFlags c will login < 256 := by
      unfold connectFlags
      cases will with
      | none =>
        cases login with
        | none => simp only; omega
        | some l =>
          have := bit_lt (!l.password.isEmpty); have := bit_lt (!l.username.isEmpty)
          simp only; omega
      | some w =>
        have := qosNum_lt w.qos; have := bit_lt w.retain
        cases login with
        | none => simp only; omega
        | some l =>
          have := bit_lt (!l.password.isEmpty); have := bit_lt (!l.username.isEmpty)
          simp only; omega
    rw [h0, ofNat_small hlt] at h1
    unfold connectFlags at h1
    refine ⟨?_, ?_⟩
    · cases will with
      | none => rfl
      | some w => simp only at h1; omega
    · rintro l rfl
      simp only at h1
      have e : ∀ x : Bytes, bit (!x.isEmpty) = 0 → x = [] := by
        intro x; cases x <;> simp [bit]
      exact ⟨e _ (by omega), e _ (by omega)⟩

theorem encode_connect (c : Connect) (will : Option LastWill) (login : Option Login) :
    ∃ rest, ((body (.Connect c will login)).length = 8 + rest.length) ∧
      encode (.Connect c will login) = 0x10 :: (varint (body (.Connect c will login)).length ++
        (preamble (UInt8.ofNat (connectFlags c will login)) ++ rest)) ∧
      (encode (.Connect c will login)).set (flagsIndex (.Connect c will login))
        (UInt8.ofNat (2 * bit c.clean_start)) =
        0x10 :: (varint (body (.Connect c will login)).length ++
          (preamble (UInt8.ofNat (2 * bit c.clean_start)) ++ rest)) := by
  refine ⟨u16 c.keep_alive ++ optSection ConnectProperties.toList c.properties ++ str c.client_id
    ++ (match will with | some w => willBytes w | none => [])
    ++ (match login with | some l => loginBytes l | none => []), ?_, ?_, ?_⟩
  · cases will <;> cases login <;>
      simp only [body, str, u16, List.length_append, List.length_cons, List.length_nil] <;> omega
  · simp only [encode, frame, body, preamble, List.append_assoc]
    rfl
  · rw [flagsIndex, show 1 + (varint (body (.Connect c will login)).length).length + 6 + 1 =
      ((varint (body (.Connect c will login)).length).length + 7) + 1 by omega]
    show List.set (0x10 :: _) _ _ = _
    rw [List.set_cons_succ, List.set_append_right _ _ (by omega), Nat.add_sub_cancel_left]
    simp only [body, preamble, List.append_assoc]
    rfl

theorem behind_eq (c : Connect) (will : Option LastWill) (login : Option Login)
    (he : Encodable (.Connect c will login)) (b : Bytes) (hb : b ≠ []) :
    let e0 := (encode (.Connect c will login)).set (flagsIndex (.Connect c will login))
        (UInt8.ofNat (2 * bit c.clean_start))
    behind (.Connect c will login) b = e0 ∨
      ∃ j, j ≤ (varint (body (.Connect c will login)).length).length + 7 ∧
        behind (.Connect c will login) b =
          e0.set j (UInt8.ofNat (connectFlags c will login)) := by
  intro e0
  unfold behind
  rw [C11_connect c will login he b]
  have hb1 : 0 < b.length := List.length_pos_iff.2 hb
  simp only
  by_cases hi : flagsIndex (.Connect c will login) < b.length
  · left
    rw [List.set_append_left _ _ hi, List.drop_append_of_le_length (by simp),
      List.drop_of_length_le (by simp), List.nil_append]
  · right
    refine ⟨flagsIndex (.Connect c will login) - b.length, ?_, ?_⟩
    · unfold flagsIndex; omega
    · rw [List.set_append_right _ _ (by omega), List.drop_left]

/-- C11, C12: nothing that is written behind other bytes is ever read as a CONNECT with a will or a
login: whatever the buffer held, whatever comes next, and whatever the size limit. -/
theorem C11_will_login_lost (c : Connect) (will : Option LastWill) (login : Option Login)
    (he : Encodable (.Connect c will login)) (b : Bytes) (hb : b ≠ []) (mode : StrMode)
    (max : Option Nat) (r r' : Bytes) (c' : Connect) (will' : Option LastWill)
    (login' : Option Login)
    (h : Packet.read mode max (behind (.Connect c will login) b ++ r) =
      (.ok (.Connect c' will' login'), r')) :
    will' = none ∧ login' = none := by
  obtain ⟨rest, -, -, h0⟩ := encode_connect c will login
  have hv0 := encode_body_rep _ he
  have hcl := bit_lt c.clean_start
  obtain ⟨b1, v, bd, hb1, hv, -, ht, f, ps, s, ww, wl, trail, hbd, -, -, -, -, hw, hl⟩ :=
    read_ok_iff.1 h
  have hf := behind_flags (e := behind (.Connect c will login) b ++ r) (rest := rest ++ r)
    (F0 := UInt8.ofNat (2 * bit c.clean_start))
    (F := UInt8.ofNat (connectFlags c will login)) (b1 := b1) (v := v) (f := f)
    (rest' := u16 c'.keep_alive ++ s ++ str c'.client_id ++ ww ++ wl ++ trail ++ r') hv0 (by
      rcases behind_eq c will login he b hb with h1 | ⟨j, hj, h1⟩
      · left; rw [h1, h0]; simp
      · right
        refine ⟨j, hj, ?_⟩
        rw [h1, h0, ← List.set_append_left _ _ (by simp [preamble]; omega)]
        simp) (by
      rw [hb1, hbd]
      simp [preamble, str, u16]) hv
  subst hf
  rw [ofNat_small (by omega)] at hw hl
  constructor
  · cases will' with
    | none => rfl
    | some w =>
      have := hw.1
      omega
  · obtain ⟨u, p, wu, wp, h1, h2, -, h3⟩ := hl
    rcases h1 with ⟨h1, -⟩ | ⟨-, rfl, -⟩
    · omega
    rcases h2 with ⟨h2, -⟩ | ⟨-, rfl, -⟩
    · omega
    simpa using h3

theorem bare_of_norm {will : Option LastWill} {login : Option Login}
    (h1 : will.map (fun w => { w with
      properties := normProps LastWillProperties.toList w.properties }) = none)
    (h2 : (login.filter fun l => !(l.username.isEmpty && l.password.isEmpty)) = none) :
    Bare will login := by
  refine ⟨by simpa using h1, ?_⟩
  rintro l rfl
  simp only [Option.filter_some] at h2
  cases hu : l.username <;> cases hp : l.password <;> simp_all

/-- C11, C12: a CONNECT written behind other bytes comes back (alone) exactly if the bytes appended
are the ones that are written into an empty buffer. -/
theorem C11_connect_back_iff (c : Connect) (will : Option LastWill) (login : Option Login)
    (he : Encodable (.Connect c will login)) (b : Bytes) (hb : b ≠ []) (mode : StrMode)
    (max : Option Nat) (hs : StringsOk mode (.Connect c will login))
    (hm : Admits max (body (.Connect c will login)).length) :
    Packet.read mode max (behind (.Connect c will login) b) =
      (.ok (norm (.Connect c will login)), []) ↔
    behind (.Connect c will login) b = encode (.Connect c will login) := by
  constructor
  · intro h
    have hlost := C11_will_login_lost c will login he b hb mode max [] [] _ _ _
      (by rw [List.append_nil]; exact h)
    have hbare := bare_of_norm hlost.1 hlost.2
    have hF := (bare_flags (c := c)).1 hbare
    obtain ⟨rest, hlen, h1, h0⟩ := encode_connect c will login
    have hv0 := encode_body_rep _ he
    have hcl := bit_lt c.clean_start
    have hor := behind_eq c will login he b hb
    rw [h0, hF] at hor
    obtain ⟨b1, v, bd, hb1, hv, -, ht, f, ps, s, ww, wl, trail, hbd, hrest⟩ := read_ok_iff.1 h
    rw [List.append_nil] at hb1
    obtain ⟨rest', hbd'⟩ : ∃ rest', bd = preamble f ++ rest' :=
      ⟨u16 c.keep_alive ++ s ++ str c.client_id ++ ww ++ wl ++ trail, by
        rw [hbd]; simp [preamble, str, u16]⟩
    rw [hbd'] at hb1 hv
    have hff := behind_flags hv0 hor hb1 hv
    subst hff
    have hsame := behind_same hv0 hlen hor hb1
      (by rw [List.length_append] at hv; exact hv) ht (by rw [ofNat_small (by omega)]; omega)
    rw [hsame, h1, hF]
  · intro h
    rw [h, ← List.append_nil (encode _)]
    exact read_encode he hs trivial hm []

theorem set_same {l : Bytes} {i : Nat} {x : UInt8} (h : l[i]? = some x) : l.set i x = l := by
  obtain ⟨hi, rfl⟩ := List.getElem?_eq_some_iff.1 h
  exact List.set_getElem_self hi

/-- C11: when a CONNECT is appended like every other packet: exactly if the buffer is empty, or the
CONNECT has neither will nor login and the position where the flags would be in an empty buffer
happens to hold the flags already. -/
theorem C11_connect_appends_iff (c : Connect) (will : Option LastWill) (login : Option Login)
    (he : Encodable (.Connect c will login)) (b : Bytes) :
    ((Packet.Connect c will login).write b).2 = b ++ encode (.Connect c will login) ↔
    b = [] ∨ (Bare will login ∧
      (b ++ encode (.Connect c will login))[flagsIndex (.Connect c will login)]? =
        some (UInt8.ofNat (connectFlags c will login))) := by
  rw [C11_connect c will login he b]
  obtain ⟨rest, hlen, h1, h0⟩ := encode_connect c will login
  have hi : flagsIndex (.Connect c will login) < (encode (.Connect c will login)).length := by
    rw [h1, flagsIndex]; simp [preamble]; omega
  have hat : (encode (.Connect c will login))[flagsIndex (.Connect c will login)]? =
      some (UInt8.ofNat (connectFlags c will login)) := by
    rw [h1, flagsIndex, show 1 + (varint (body (.Connect c will login)).length).length + 6 + 1 =
      ((varint (body (.Connect c will login)).length).length + 7) + 1 by omega,
      List.getElem?_cons_succ, List.getElem?_append_right (by omega), Nat.add_sub_cancel_left]
    rfl
  generalize hF : UInt8.ofNat (connectFlags c will login) = F at *
  generalize hF0 : UInt8.ofNat (2 * bit c.clean_start) = F0 at *
  have hbf : Bare will login ↔ F = F0 := by rw [bare_flags (c := c), hF, hF0]
  rw [hbf]
  generalize flagsIndex (.Connect c will login) = i at *
  generalize encode (.Connect c will login) = e at *
  clear h0 h1 hlen
  simp only
  constructor
  · intro h
    rcases Nat.eq_zero_or_pos b.length with hb | hb
    · exact .inl (List.length_eq_zero_iff.1 hb)
    · right
      refine ⟨?_, ?_⟩
      · have := congrArg (fun l : Bytes => l[b.length + i]?) h
        simp only [List.getElem?_append_right (Nat.le_add_right _ _), Nat.add_sub_cancel_left, hat]
          at this
        rw [List.getElem?_set_ne (by omega), List.getElem?_append_right (by omega),
          Nat.add_sub_cancel_left, List.getElem?_set_self hi] at this
        exact (Option.some.inj this).symm
      · rw [← h, List.getElem?_set_self (by simp; omega)]
  · rintro (rfl | ⟨rfl, h⟩)
    · simp only [List.nil_append, List.set_set]
      exact set_same hat
    · have h2 : e.set i F = e := set_same hat
      rw [h2]
      exact set_same h

/-- The hypotheses can be met. A CONNECT with a user name behind one byte and behind two PINGREQs:
the first is refused, the second is refused too; behind five PINGREQs it comes back without the
login. A bare CONNECT (no clean start) behind seven bytes is unharmed: the flags 0 fall on the
first byte of the protocol name's length. -/
example :
    let c : Connect := { keep_alive := 60, client_id := [], clean_start := true, properties := none }
    let l : Login := { username := [0x75], password := [] }
    let ping : Bytes := [0xC0, 0]
    Encodable (.Connect c none (some l)) ∧
    behind (.Connect c none (some l)) [9] =
      [0x10, 16, 0, 4, 0x4D, 0x51, 0x54, 0x54, 0x82, 2, 0, 60, 0, 0, 0, 0, 1, 0x75] ∧
    (Packet.read .utf8 none (behind (.Connect c none (some l)) [9])).1 =
      .err (.InvalidProtocolLevel 0x82) ∧
    (Packet.read .utf8 none (behind (.Connect c none (some l)) (ping ++ ping))).1 =
      .err .TopicNotUtf8 ∧
    (Packet.read .utf8 none
      (behind (.Connect c none (some l)) (ping ++ ping ++ ping ++ ping ++ ping))).1 =
      .ok (.Connect c none none) ∧
    ¬ Bare none (some l) ∧
    Bare none (some { username := [], password := [] }) := by
  refine ⟨?_, ?_, ?_, ?_, ?_, ?_, ?_⟩
  · exact encodable_of_ok (b := []) (b' := [0x10, 16, 0, 4, 0x4D, 0x51, 0x54, 0x54, 5, 0x82, 0, 60,
      0, 0, 0, 0, 1, 0x75]) (n := 18) (by decide +kernel)
  · decide +kernel
  · decide +kernel
  · decide +kernel
  · decide +kernel
  · intro h; simpa using (h.2 _ rfl).1
  · exact ⟨rfl, fun l hl => by cases hl; exact ⟨rfl, rfl⟩⟩

example :
    let c : Connect := { keep_alive := 60, client_id := [], clean_start := false, properties := none }
    behind (.Connect c none none) [1, 2, 3, 4, 5, 6, 7] = encode (.Connect c none none) ∧
    behind (.Connect c none none) [1, 2, 3] ≠ encode (.Connect c none none) := by
  decide +kernel

end Props
