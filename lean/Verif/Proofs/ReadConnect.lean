import Verif.Proofs.ReadRest
/-
The typed reader of CONNECT on a complete frame.
-/
set_option linter.unusedSimpArgs false

namespace Mqtt

open Spec

variable {mode : StrMode} {β : Type}

theorem LastWill.read_ok {x : UInt8} {b r : Bytes} {w : Option LastWill} :
    LastWill.read mode x b = (.ok w, r) ↔ ∃ ww, b = ww ++ r ∧ WillRep mode x.toNat w ww := by
  obtain ⟨-, e2, e3, e4, e5, -, -⟩ := bits_connect x
  have key : x.toNat / 8 % 8 = x.toNat / 8 % 4 + 4 * (x.toNat / 32 % 2) := by omega
  unfold LastWill.read
  by_cases h0 : x &&& 0b100 = 0
  · rw [if_pos h0]
    by_cases h1 : x &&& 0b00111000 = 0
    · rw [if_neg (by simpa using h1), pure_ok]
      have e2' := e2.1 h0; have e3' := e3.1 h1
      constructor
      · rintro ⟨rfl, rfl⟩
        exact ⟨[], rfl, by omega, rfl⟩
      · rintro ⟨ww, rfl, h⟩
        cases w with
        | none => exact ⟨rfl, by rw [h.2]; rfl⟩
        | some w => exact absurd h.1 (by omega)
    · rw [if_pos h1]
      have e2' := e2.1 h0
      have e3' : ¬ x.toNat / 8 % 8 = 0 := fun h => h1 (e3.2 h)
      constructor
      · intro h; simp at h
      · rintro ⟨ww, rfl, h⟩
        cases w with
        | none => exact absurd h.1 (by omega)
        | some w => exact absurd h.1 (by omega)
  · rw [if_neg h0]
    have e2' : x.toNat / 4 % 2 = 1 := by
      have : ¬ x.toNat / 4 % 2 = 0 := fun h => h0 (e2.2 h)
      omega
    constructor
    · intro h
      replace h := (inv_props (LastWillProperties.read_eq mode)).1 h
      obtain ⟨ps, s, b1, rfl, hs, h⟩ := h
      replace h := inv_bytes.1 h
      obtain ⟨t, b2, rfl, ht, h⟩ := h
      replace h := inv_bytes.1 h
      obtain ⟨m, b3, rfl, hm, h⟩ := h
      replace h := inv_qos.1 h
      obtain ⟨q, hq, h⟩ := h
      obtain ⟨rfl, rfl⟩ := pure_ok.1 h
      refine ⟨s ++ str t ++ str m, by simp, e2', ?_, ?_, ht, hm, ps, s, hs, rfl, rfl⟩
      · rw [← e4]; exact hq
      · rw [bit_eq_iff (by omega)]; exact e5
    · rintro ⟨ww, rfl, h⟩
      cases w with
      | none => exact absurd h.1 (by omega)
      | some w =>
        obtain ⟨-, hq, hr, ht, hm, ps, s, hs, ho, rfl⟩ := h
        rw [List.append_assoc, List.append_assoc]
        refine (inv_props (LastWillProperties.read_eq mode)).2 ⟨ps, s, _, rfl, hs,
          inv_bytes.2 ⟨_, _, rfl, ht, inv_bytes.2 ⟨_, _, rfl, hm,
            inv_qos.2 ⟨w.qos, by rw [e4]; exact hq, pure_ok.2 ⟨?_, rfl⟩⟩⟩⟩⟩
        rw [bit_eq_iff (by omega), ← e5] at hr
        obtain ⟨t, m, q, rt, o⟩ := w
        simp only at hr ho
        rw [hr, ho]

theorem LastWill.read_good (x : UInt8) : Good (LastWill.read mode x) := by
  refine Good.ite (Good.ite (Good.throwE _) (Good.pure _)) ?_
  exact Good.bind (props_good (LastWillProperties.read_eq mode)) fun _ =>
    Good.bind Good.read_mqtt_bytes fun _ => Good.bind Good.read_mqtt_bytes fun _ =>
      Good.bind (Good.qosOrErr _) fun _ => Good.pure _

/-- A field that is read only if its flag is set. -/
theorem flagField_ok {x m : UInt8} {n : Nat} (hm : x &&& m = 0 ↔ n = 0) (hn : n < 2)
    {b r s : Bytes} :
    (if x &&& m = 0 then (pure [] : M MqttString) else read_mqtt_string mode) b = (.ok s, r) ↔
      ∃ w, b = w ++ r ∧ FlagField mode n s w := by
  by_cases h : x &&& m = 0
  · rw [if_pos h, pure_ok]
    have h0 := hm.1 h
    constructor
    · rintro ⟨rfl, rfl⟩; exact ⟨[], rfl, .inr ⟨h0, rfl, rfl⟩⟩
    · rintro ⟨w, rfl, h1 | h1⟩
      · exact absurd h1.1 (by omega)
      · obtain ⟨-, rfl, rfl⟩ := h1; exact ⟨rfl, rfl⟩
  · rw [if_neg h, read_mqtt_string_ok]
    have h0 : n = 1 := by
      have : ¬ n = 0 := fun h' => h (hm.2 h')
      omega
    constructor
    · rintro ⟨rfl, hl, ht⟩; exact ⟨str s, rfl, .inl ⟨h0, ⟨hl, ht⟩, rfl⟩⟩
    · rintro ⟨w, rfl, h1 | h1⟩
      · obtain ⟨-, ⟨hl, ht⟩, rfl⟩ := h1; exact ⟨rfl, hl, ht⟩
      · exact absurd h1.1 (by omega)

theorem Login.read_ok {x : UInt8} {b r : Bytes} {l : Option Login} :
    Login.read mode x b = (.ok l, r) ↔ ∃ wl, b = wl ++ r ∧ LoginRep mode x.toNat l wl := by
  obtain ⟨-, -, -, -, -, e6, e7⟩ := bits_connect x
  unfold Login.read
  have hif : ∀ u p : Bytes, (if (u.isEmpty && p.isEmpty) = true then (pure none : M (Option Login))
      else pure (some { username := u, password := p })) =
      pure (if u = [] ∧ p = [] then none else some { username := u, password := p }) := by
    intro u p
    cases u <;> cases p <;> simp
  rw [M.bind_eq_ok]
  simp only [M.bind_eq_ok, hif, pure_ok]
  constructor
  · rintro ⟨u, b1, hu, p, b2, hp, rfl, rfl⟩
    replace hu := (flagField_ok e6 (by omega)).1 hu
    replace hp := (flagField_ok e7 (by omega)).1 hp
    obtain ⟨wu, rfl, hu⟩ := hu
    obtain ⟨wp, rfl, hp⟩ := hp
    exact ⟨wu ++ wp, by simp, u, p, wu, wp, hu, hp, rfl, rfl⟩
  · rintro ⟨wl, rfl, u, p, wu, wp, hu, hp, rfl, rfl⟩
    refine ⟨u, wp ++ r, (flagField_ok e6 (by omega)).2 ⟨wu, by simp, hu⟩, p, r,
      (flagField_ok e7 (by omega)).2 ⟨wp, rfl, hp⟩, rfl, rfl⟩

theorem Login.read_good (x : UInt8) : Good (Login.read mode x) := by
  refine Good.bind (Good.ite (Good.pure _) (Good.read_mqtt_string mode)) fun _ =>
    Good.bind (Good.ite (Good.pure _) (Good.read_mqtt_string mode)) fun _ => ?_
  exact Good.ite (Good.pure _) (Good.pure _)

theorem protocolName_text : TextField mode Connect.protocolName :=
  ⟨by decide, fun _ => (utf8Valid_iff _).1 (by decide)⟩

theorem Connect.read_iff {fh : FixedHeader} {hdr body : Bytes} {c : Connect}
    {will : Option LastWill} {login : Option Login}
    (hh : hdr.length = fh.fixed_header_len) :
    (∃ r, Connect.read mode fh (hdr ++ body) = (.ok (c, will, login), r)) ↔
      BodyRep mode fh.byte1.toNat body (.Connect c will login) := by
  unfold Connect.read
  rw [M.bind_ok (advance_hdr hh)]
  constructor
  · rintro ⟨r, h⟩
    replace h := inv_str.1 h
    obtain ⟨pn, b1, rfl, -, h⟩ := h
    replace h := inv_u8.1 h
    obtain ⟨pl, b2, rfl, h⟩ := h
    by_cases h1 : pn ≠ Connect.protocolName
    · rw [if_pos h1] at h; simp at h
    rw [if_neg h1] at h
    by_cases h2 : pl ≠ 5
    · rw [if_pos h2] at h; simp at h
    rw [if_neg h2] at h
    replace h1 := Classical.not_not.1 h1; replace h2 := Classical.not_not.1 h2
    subst h1; subst h2
    replace h := inv_u8.1 h
    obtain ⟨flags, b3, rfl, h⟩ := h
    replace h := inv_u16.1 h
    obtain ⟨ka, b4, rfl, h⟩ := h
    replace h := (inv_props (ConnectProperties.read_eq mode)).1 h
    obtain ⟨ps, s, b5, rfl, hs, h⟩ := h
    replace h := inv_str.1 h
    obtain ⟨ci, b6, rfl, hci, h⟩ := h
    replace h := M.bind_eq_ok.1 h
    obtain ⟨w, b7, hw, h⟩ := h
    replace h := M.bind_eq_ok.1 h
    obtain ⟨l, b8, hl, h⟩ := h
    replace hw := LastWill.read_ok.1 hw
    replace hl := Login.read_ok.1 hl
    obtain ⟨wl, rfl, hl⟩ := hl
    obtain ⟨ww, rfl, hw⟩ := hw
    replace h := pure_ok.1 h
    obtain ⟨h, rfl⟩ := h
    simp only [Prod.mk.injEq] at h
    obtain ⟨rfl, rfl, rfl⟩ := h
    refine ⟨flags, ps, s, ww, wl, r, by simp [Connect.protocolName], ?_, hs, rfl, hci, hw, hl⟩
    rw [bit_eq_iff (by omega)]; exact (bits_connect flags).1
  · rintro ⟨flags, ps, s, ww, wl, trail, rfl, hcs, hs, ho, hci, hw, hl⟩
    refine ⟨trail, ?_⟩
    simp only [List.append_assoc]
    refine inv_str.2 ⟨_, _, rfl, protocolName_text, inv_u8.2 ⟨_, _, rfl, ?_⟩⟩
    rw [if_neg (by simp [Connect.protocolName]), if_neg (by simp)]
    refine inv_u8.2 ⟨_, _, rfl, inv_u16.2 ⟨_, _, rfl,
      (inv_props (ConnectProperties.read_eq mode)).2 ⟨ps, s, _, rfl, hs,
        inv_str.2 ⟨_, _, rfl, hci, ?_⟩⟩⟩⟩
    refine M.bind_eq_ok.2 ⟨will, wl ++ trail, LastWill.read_ok.2 ⟨ww, rfl, hw⟩,
      M.bind_eq_ok.2 ⟨login, trail, Login.read_ok.2 ⟨wl, rfl, hl⟩, pure_ok.2 ⟨?_, rfl⟩⟩⟩
    rw [bit_eq_iff (by omega), ← (bits_connect flags).1] at hcs
    obtain ⟨ka, ci, cs, o⟩ := c
    simp only at hcs ho
    rw [hcs, ho]

theorem Connect.read_good {fh : FixedHeader} {hdr body : Bytes}
    (hh : hdr.length = fh.fixed_header_len) :
    ∃ m : M (Connect × Option LastWill × Option Login), Good m ∧
      Connect.read mode fh (hdr ++ body) = m body := by
  refine ⟨_, ?_, M.bind_ok (advance_hdr hh)⟩
  refine Good.bind (Good.read_mqtt_string mode) fun _ => Good.bind Good.read_u8 fun _ =>
    Good.ite (Good.throwE _) (Good.ite (Good.throwE _) ?_)
  exact Good.bind Good.read_u8 fun _ => Good.bind Good.read_u16 fun _ =>
    Good.bind (props_good (ConnectProperties.read_eq mode)) fun _ =>
      Good.bind (Good.read_mqtt_string mode) fun _ => Good.bind (LastWill.read_good _) fun _ =>
        Good.bind (Login.read_good _) fun _ => Good.pure _

end Mqtt
