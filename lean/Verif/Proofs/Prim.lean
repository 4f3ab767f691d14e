import Verif.Proofs.Utf8
/-
The primitive readers and writers of src/lib.rs against the wire format.
-/
set_option linter.unusedSimpArgs false

namespace Mqtt

open Spec (u16 u32 str varint VarintRep TextOk)

theorem u16_val (a b : UInt8) :
    u16 (UInt16.ofNat (a.toNat * 256 + b.toNat)) = [a, b] := by
  have ha := u8_lt a; have hb := u8_lt b
  have h : (UInt16.ofNat (a.toNat * 256 + b.toNat)).toNat = a.toNat * 256 + b.toNat :=
    UInt16.toNat_ofNat_of_lt' (by show _ < 2 ^ 16; omega)
  unfold u16
  rw [h, ofNat_eq a (by omega), ofNat_eq b (by omega)]

theorem u32_val (a b c d : UInt8) :
    u32 (UInt32.ofNat (((a.toNat * 256 + b.toNat) * 256 + c.toNat) * 256 + d.toNat))
      = [a, b, c, d] := by
  have ha := u8_lt a; have hb := u8_lt b; have hc := u8_lt c; have hd := u8_lt d
  have h : (UInt32.ofNat (((a.toNat * 256 + b.toNat) * 256 + c.toNat) * 256 + d.toNat)).toNat
      = ((a.toNat * 256 + b.toNat) * 256 + c.toNat) * 256 + d.toNat :=
    UInt32.toNat_ofNat_of_lt' (by show _ < 2 ^ 32; omega)
  unfold u32
  rw [h, ofNat_eq a (by omega), ofNat_eq b (by omega), ofNat_eq c (by omega),
    ofNat_eq d (by omega)]

/-! ### read_u8 -/

theorem read_u8_cons (x : UInt8) (r : Bytes) : read_u8 (x :: r) = (.ok x, r) := rfl

theorem read_u8_nil : read_u8 [] = (.err .MalformedPacket, []) := rfl

theorem read_u8_ok {b r : Bytes} {x : UInt8} : read_u8 b = (.ok x, r) ↔ b = x :: r := by
  cases b with
  | nil => simp [read_u8_nil]
  | cons y b => simp [read_u8_cons]

theorem parses_u8 (x : UInt8) : Parses read_u8 [x] x := fun _ => rfl

theorem Good.read_u8 : Good read_u8 := by
  intro b
  cases b with
  | nil => simp [read_u8_nil]
  | cons y b => simp [read_u8_cons]

/-! ### read_u16 -/

theorem read_u16_cons (x y : UInt8) (r : Bytes) :
    read_u16 (x :: y :: r) = (.ok (UInt16.ofNat (x.toNat * 256 + y.toNat)), r) := rfl

theorem read_u16_short {b : Bytes} (h : b.length < 2) : read_u16 b = (.err .MalformedPacket, b) := by
  rcases b with _ | ⟨x, _ | ⟨y, b⟩⟩
  · rfl
  · rfl
  · simp at h; omega

theorem u16_read (x : UInt16) :
    UInt16.ofNat ((UInt8.ofNat (x.toNat / 256)).toNat * 256 + (UInt8.ofNat (x.toNat % 256)).toNat)
      = x := by
  have h : x.toNat < 65536 := x.toNat_lt
  rw [ofNat_toNat (by omega), ofNat_toNat (by omega)]
  rw [show x.toNat / 256 * 256 + x.toNat % 256 = x.toNat by omega]
  exact UInt16.ofNat_toNat

theorem parses_u16 (x : UInt16) : Parses read_u16 (u16 x) x := by
  intro r
  simp only [u16, List.cons_append, List.nil_append, read_u16_cons, u16_read]

theorem read_u16_ok {b r : Bytes} {x : UInt16} : read_u16 b = (.ok x, r) ↔ b = u16 x ++ r := by
  constructor
  · intro h
    rcases b with _ | ⟨y, _ | ⟨z, b⟩⟩
    · simp [read_u16_short] at h
    · simp [read_u16_short] at h
    · rw [read_u16_cons] at h
      simp only [Prod.mk.injEq, Out.ok.injEq] at h
      rw [← h.1, u16_val, h.2]; rfl
  · rintro rfl; exact parses_u16 x r

theorem Good.read_u16 : Good read_u16 := by
  intro b
  rcases b with _ | ⟨y, _ | ⟨z, b⟩⟩
  · simp [read_u16_short]
  · simp [read_u16_short]
  · rw [read_u16_cons]
    exact ⟨by simp, by simp, ⟨[y, z], rfl⟩⟩

/-! ### read_u32 -/

theorem read_u32_cons (x y z t : UInt8) (r : Bytes) :
    read_u32 (x :: y :: z :: t :: r) =
      (.ok (UInt32.ofNat (((x.toNat * 256 + y.toNat) * 256 + z.toNat) * 256 + t.toNat)), r) := by
  simp only [read_u32, getBuf_bind, List.length_cons]
  rw [if_neg (by omega)]; rfl

theorem read_u32_short {b : Bytes} (h : b.length < 4) : read_u32 b = (.err .MalformedPacket, b) := by
  simp only [read_u32, getBuf_bind]
  rw [if_pos h]; rfl

theorem u32_read (x : UInt32) :
    UInt32.ofNat ((((UInt8.ofNat (x.toNat / 256 ^ 3)).toNat * 256 +
      (UInt8.ofNat (x.toNat / 256 ^ 2 % 256)).toNat) * 256 +
      (UInt8.ofNat (x.toNat / 256 % 256)).toNat) * 256 + (UInt8.ofNat (x.toNat % 256)).toNat)
      = x := by
  have h : x.toNat < 4294967296 := x.toNat_lt
  rw [ofNat_toNat (by omega), ofNat_toNat (by omega), ofNat_toNat (by omega),
    ofNat_toNat (by omega)]
  rw [show ((x.toNat / 256 ^ 3 * 256 + x.toNat / 256 ^ 2 % 256) * 256 + x.toNat / 256 % 256) * 256
    + x.toNat % 256 = x.toNat by omega]
  exact UInt32.ofNat_toNat

theorem parses_u32 (x : UInt32) : Parses read_u32 (u32 x) x := by
  intro r
  simp only [u32, List.cons_append, List.nil_append, read_u32_cons, u32_read]

theorem read_u32_ok {b r : Bytes} {x : UInt32} : read_u32 b = (.ok x, r) ↔ b = u32 x ++ r := by
  constructor
  · intro h
    rcases b with _ | ⟨y, _ | ⟨z, _ | ⟨t, _ | ⟨u, b⟩⟩⟩⟩
    iterate 4 simp [read_u32_short] at h
    rw [read_u32_cons] at h
    simp only [Prod.mk.injEq, Out.ok.injEq] at h
    rw [← h.1, u32_val, h.2]; rfl
  · rintro rfl; exact parses_u32 x r

theorem Good.read_u32 : Good read_u32 := by
  intro b
  rcases b with _ | ⟨y, _ | ⟨z, _ | ⟨t, _ | ⟨u, b⟩⟩⟩⟩
  iterate 4 simp [read_u32_short]
  rw [read_u32_cons]
  exact ⟨by simp, by simp, ⟨[y, z, t, u], rfl⟩⟩

/-! ### read_mqtt_bytes, read_mqtt_string -/

theorem str_len {s : Bytes} (h : s.length ≤ 65535) :
    (UInt16.ofNat s.length).toNat = s.length :=
  UInt16.toNat_ofNat_of_lt' (by show _ < 2 ^ 16; omega)

@[simp] theorem u16_length (x : UInt16) : (u16 x).length = 2 := rfl
@[simp] theorem u32_length (x : UInt32) : (u32 x).length = 4 := rfl
@[simp] theorem str_length (s : Bytes) : (str s).length = 2 + s.length := by simp [str]

theorem parses_bytes {s : Bytes} (h : s.length ≤ 65535) : Parses read_mqtt_bytes (str s) s := by
  intro r
  rw [read_mqtt_bytes, str, List.append_assoc, (parses_u16 _).bind_apply, getBuf_bind, str_len h,
    if_neg (by simp), splitTo, if_pos (by simp)]
  simp

theorem read_mqtt_bytes_ok {b r s : Bytes} :
    read_mqtt_bytes b = (.ok s, r) ↔ b = str s ++ r ∧ s.length ≤ 65535 := by
  constructor
  · intro h
    rw [read_mqtt_bytes, M.bind_eq_ok] at h
    obtain ⟨n, b1, h1, h2⟩ := h
    rw [read_u16_ok] at h1
    rw [getBuf_bind] at h2
    by_cases hlen : n.toNat > b1.length
    · rw [if_pos hlen] at h2; simp at h2
    · rw [if_neg hlen, splitTo, if_pos (by omega)] at h2
      simp only [Prod.mk.injEq, Out.ok.injEq] at h2
      have hn : n.toNat < 65536 := n.toNat_lt
      have hs : s.length = n.toNat := by rw [← h2.1]; simp; omega
      refine ⟨?_, by omega⟩
      rw [h1, str, hs, UInt16.ofNat_toNat, ← h2.1, ← h2.2, List.append_assoc, List.take_append_drop]
  · rintro ⟨rfl, h⟩; exact parses_bytes h r

theorem Good.splitTo_le {b : Bytes} {n : Nat} (h : n ≤ b.length) :
    splitTo n b = (.ok (b.take n), b.drop n) := by rw [splitTo, if_pos h]

theorem Good.read_mqtt_bytes : Good read_mqtt_bytes := by
  refine Good.bind Good.read_u16 fun n b => ?_
  rw [getBuf_bind]
  by_cases h : n.toNat > b.length
  · rw [if_pos h]; simp
  · rw [if_neg h, splitTo, if_pos (by omega)]
    exact ⟨by simp, by simp, List.drop_suffix _ _⟩

theorem parses_string {mode : StrMode} {s : Bytes} (h : s.length ≤ 65535) (ht : TextOk mode s) :
    Parses (read_mqtt_string mode) (str s) s := by
  intro r
  rw [read_mqtt_string, (parses_bytes h).bind_apply]
  cases mode with
  | binary => rfl
  | utf8 => simp only [(utf8Valid_iff s).2 (ht rfl), if_true]; rfl

theorem read_mqtt_string_ok {mode : StrMode} {b r s : Bytes} :
    read_mqtt_string mode b = (.ok s, r) ↔ b = str s ++ r ∧ s.length ≤ 65535 ∧ TextOk mode s := by
  constructor
  · intro h
    rw [read_mqtt_string, M.bind_eq_ok] at h
    obtain ⟨t, b1, h1, h2⟩ := h
    rw [read_mqtt_bytes_ok] at h1
    cases mode with
    | binary =>
      simp only [M.pure_apply, Prod.mk.injEq, Out.ok.injEq] at h2
      obtain ⟨rfl, rfl⟩ := h2
      exact ⟨h1.1, h1.2, fun h => by simp at h⟩
    | utf8 =>
      by_cases hv : utf8Valid t = true
      · simp only [hv, if_true, M.pure_apply, Prod.mk.injEq, Out.ok.injEq] at h2
        obtain ⟨rfl, rfl⟩ := h2
        exact ⟨h1.1, h1.2, fun _ => (utf8Valid_iff t).1 hv⟩
      · simp [hv] at h2
  · rintro ⟨rfl, h, ht⟩; exact parses_string h ht r

/-- An ill-formed text is refused. -/
theorem read_mqtt_string_bad {s : Bytes} (h : s.length ≤ 65535) (ht : ¬ Spec.IsUtf8 s) (r : Bytes) :
    read_mqtt_string .utf8 (str s ++ r) = (.err .TopicNotUtf8, r) := by
  rw [read_mqtt_string, (parses_bytes h).bind_apply]
  have : ¬ utf8Valid s = true := fun hv => ht ((utf8Valid_iff s).1 hv)
  simp [this]

theorem Good.read_mqtt_string (mode : StrMode) : Good (read_mqtt_string mode) := by
  refine Good.bind Good.read_mqtt_bytes fun s => ?_
  cases mode
  · exact Good.ite (Good.pure _) (Good.throwE _)
  · exact Good.pure _

/-! ### Writers -/

theorem emits_u8 (x : UInt8) : Emits (putU8 x) (.ok ()) [x] := fun _ => rfl

theorem emits_u16 (x : UInt16) : Emits (putU16 x) (.ok ()) (u16 x) := fun _ => rfl

theorem emits_u32 (x : UInt32) : Emits (putU32 x) (.ok ()) (u32 x) := fun _ => rfl

theorem emits_bytes {s : Bytes} (h : s.length ≤ 65535) :
    Emits (write_mqtt_bytes s) (.ok ()) (str s) := by
  rw [write_mqtt_bytes, if_pos (by omega)]
  exact Emits.bind (emits_u16 _) (Emits.putBytes _)

theorem emits_bytes_err {s : Bytes} (h : 65535 < s.length) :
    Emits (write_mqtt_bytes s) (.err .BinaryDataTooLong) [] := by
  rw [write_mqtt_bytes, if_neg (by omega)]
  exact Emits.throwE _

theorem emits_string {s : Bytes} (h : s.length ≤ 65535) :
    Emits (write_mqtt_string s) (.ok ()) (str s) := emits_bytes h

end Mqtt
