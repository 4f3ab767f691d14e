import Verif.Proofs.WriteRest
/-
Writer of CONNECT.
-/
set_option linter.unusedSimpArgs false

namespace Mqtt

open Spec

/-- `wr_frame` with any result. -/
theorem wr_frame' {α : Type} {J : Err → Prop} {h : UInt8} {len : Nat} {body : Bytes} {P : Prop}
    {a : α} {k : Nat → M α} (hlen : P → LenSpec len body)
    (hJ : 268435455 < len → J .PayloadTooLong)
    (hk : len ≤ 268435455 → Wr J (k (varint len).length) P a body) :
    Wr J (putU8 h >>= fun _ => write_remaining_length len >>= k)
      (P ∧ body.length ≤ 268435455) a (frame h body) := by
  by_cases hl : len ≤ 268435455
  · have h1 := Wr.step (emits_u8 h) (f := fun _ => write_remaining_length len >>= k)
      (Wr.step (write_remaining_length_emits hl) (hk hl))
    refine h1.congr ?_ (fun _ => rfl) ?_
    · constructor
      · intro hp; exact ⟨hp, (hlen hp).2 hl ▸ hl⟩
      · exact fun h => h.1
    · rintro ⟨hp, -⟩
      rw [(hlen hp).2 hl]; simp [frame]
  · constructor
    · rintro ⟨hp, hb⟩
      have := (hlen hp).1
      omega
    · intro _
      exact ⟨_, _, hJ (by omega), Emits.bind (emits_u8 h)
        (Emits.bind_err (write_remaining_length_err (by omega)))⟩

/-- The flags contributed by the will. -/
def willFlags : Option LastWill → UInt8
  | some w =>
    let f := ((0 : UInt8) ||| ((0x04 : UInt8) ||| (w.qos.toU8 <<< 3)))
    if w.retain then f ||| 0x20 else f
  | none => 0

/-- The flags contributed by the login. -/
def loginFlags : Option Login → UInt8
  | some l =>
    let f : UInt8 := if l.username.isEmpty then 0 else 0 ||| 0x80
    if l.password.isEmpty then f else f ||| 0x40
  | none => 0

/-- The first value of the flags byte. -/
def cleanFlags (c : Connect) : UInt8 := if c.clean_start then (0 : UInt8) ||| 0x02 else 0

theorem connectFlags_eq (c : Connect) (will : Option LastWill) (login : Option Login) :
    cleanFlags c ||| willFlags will ||| loginFlags login
      = UInt8.ofNat (connectFlags c will login) := by
  unfold cleanFlags willFlags loginFlags connectFlags
  rcases will with _ | ⟨_, _, q, r, _⟩ <;> rcases login with _ | ⟨u, pw⟩ <;>
    cases c.clean_start
  all_goals try (cases q <;> cases r)
  all_goals try (cases u <;> cases pw)
  all_goals
    simp only [QoS.toU8, qosNum, bit, Bool.false_eq_true, if_true, if_false, List.isEmpty,
      Bool.not_true, Bool.not_false] <;> rfl

theorem LastWill.write_wr {P : Packet} {w : LastWill} (ht : w.topic ∈ fields P)
    (hm : w.message ∈ fields P)
    (hp : ∀ q ∈ optList Spec.LastWillProperties.toList w.properties, q ∈ props P)
    (hg : gLen (optList Spec.LastWillProperties.toList w.properties) ≤ 268435455) :
    Wr (Refusal P) w.write
      ((∀ q ∈ optList Spec.LastWillProperties.toList w.properties, q.Fits) ∧
        w.topic.length ≤ 65535 ∧ w.message.length ≤ 65535)
      (willFlags (some w)) (willBytes w) := by
  refine (Wr.bind (wr_props LastWillProperties.len_eq LastWillProperties.write_eq w.properties hg
    fun q hq e he => refusal_prop (hp q hq) he)
    (Wr.bind (wr_str ht) (Wr.bind (f := fun _ => pure (willFlags (some w))) (wr_str hm)
      (Wr.pure (willFlags (some w)))))).congr ?_ (fun _ => rfl) ?_
  · simp
  · intro _; simp [willBytes]

theorem Login.write_wr {P : Packet} {l : Login} (hu : l.username ∈ fields P)
    (hp : l.password ∈ fields P) :
    Wr (Refusal P) l.write (l.username.length ≤ 65535 ∧ l.password.length ≤ 65535)
      (loginFlags (some l)) (loginBytes l) := by
  have aux : ∀ (s : Bytes) (f g : UInt8), s ∈ fields P →
      Wr (Refusal P) (if s.isEmpty then pure f else write_mqtt_string s >>= fun _ => pure (f ||| g))
        (s.length ≤ 65535) (if s.isEmpty then f else f ||| g) (optStr s) := by
    intro s f g hs
    cases s with
    | nil => exact (Wr.pure _).congr (by simp) (fun _ => rfl) (fun _ => rfl)
    | cons x s =>
      refine (Wr.bind (f := fun _ => pure (f ||| g)) (wr_str hs) (Wr.pure (f ||| g))).congr
        (by simp) (fun _ => rfl) ?_
      intro _; simp [optStr]
  exact Wr.bind (aux l.username 0 0x80 hu) (aux l.password _ 0x40 hp)

/-- Everything `Connect::write` does before it patches the flags byte. -/
def connectPre (c : Connect) (will : Option LastWill) (l : Option Login) : M (UInt8 × Nat) :=
  putU8 0b00010000 >>= fun _ => write_remaining_length (c.len will l) >>= fun count =>
  write_mqtt_string Connect.protocolName >>= fun _ =>
  putU8 0x05 >>= fun _ =>
  putU8 (cleanFlags c) >>= fun _ =>
  putU16 c.keep_alive >>= fun _ =>
  writeOptProps ConnectProperties.write c.properties >>= fun _ =>
  write_mqtt_string c.client_id >>= fun _ =>
  (match will with
    | some w => w.write >>= fun f => pure (cleanFlags c ||| f)
    | none => pure (cleanFlags c)) >>= fun f1 =>
  (match l with
    | some l => l.write >>= fun f => pure (f1 ||| f)
    | none => pure f1) >>= fun f2 =>
  pure (f2, count)

theorem Connect.write_eq (c : Connect) (will : Option LastWill) (l : Option Login) :
    c.write will l = connectPre c will l >>= fun r =>
      setIndex (1 + r.2 + 2 + 4 + 1) r.1 >>= fun _ => pure (1 + r.2 + c.len will l) := by
  unfold Connect.write connectPre
  simp only [bind_assoc, pure_bind]
  rfl

/-- The will's bytes, if any. -/
def optWillBytes : Option LastWill → Bytes
  | some w => willBytes w
  | none => []

/-- The login's bytes, if any. -/
def optLoginBytes : Option Login → Bytes
  | some l => loginBytes l
  | none => []

/-- The encoding with the flags byte as first written (clean start only). -/
def connectBody0 (c : Connect) (will : Option LastWill) (l : Option Login) : Bytes :=
  str Connect.protocolName ++ [0x05] ++ [cleanFlags c]
    ++ u16 c.keep_alive ++ optSection Spec.ConnectProperties.toList c.properties ++ str c.client_id
    ++ optWillBytes will ++ optLoginBytes l

theorem connectBody0_length (c : Connect) (will : Option LastWill) (l : Option Login) :
    (connectBody0 c will l).length = (body (.Connect c will l)).length := by
  simp [connectBody0, body, Connect.protocolName]; cases will <;> cases l <;> rfl

theorem Login.len_eq (l : Login) : l.len = (loginBytes l).length := by
  obtain ⟨u, p⟩ := l
  cases u <;> cases p <;> simp [Login.len, loginBytes, optStr]

theorem Connect.lenSpec (c : Connect) (will : Option LastWill) (l : Option Login)
    (hf : ∀ q ∈ props (.Connect c will l), FitsNum q) :
    LenSpec (c.len will l) (connectBody0 c will l) := by
  have hw : LenSpec (match (generalizing := false) will with | some w => w.len | none => 0)
      (optWillBytes will) := by
    cases will with
    | none => exact LenSpec.refl []
    | some w =>
      refine ((lenSpec_opt LastWillProperties.len_eq w.properties ?_).add
        ((LenSpec.refl (str w.topic)).add (LenSpec.refl (str w.message)))).congr ?_ ?_
      · intro q hq; exact hf q (by simp [props, hq])
      · simp [LastWill.len]; omega
      · simp [optWillBytes, willBytes]
  have hl : LenSpec (match (generalizing := false) l with | some l => l.len | none => 0)
      (optLoginBytes l) := by
    cases l with
    | none => exact LenSpec.refl []
    | some l => exact LenSpec.of_eq (Login.len_eq l)
  have h1 : LenSpec 10 (str Connect.protocolName ++ [0x05] ++ [cleanFlags c] ++ u16 c.keep_alive) :=
    LenSpec.of_eq (by simp [Connect.protocolName])
  refine ((((h1.add (lenSpec_opt ConnectProperties.len_eq c.properties
    fun q hq => hf q (by simp [props, hq]))).add (LenSpec.refl (str c.client_id))).add hw).add
      hl).congr ?_ ?_
  · simp [Connect.len, Connect.protocolName]; cases will <;> cases l <;> rfl
  · simp [connectBody0]

theorem connectPre_wr (c : Connect) (will : Option LastWill) (l : Option Login) :
    Wr (Refusal (.Connect c will l)) (connectPre c will l) (Encodable (.Connect c will l))
      (UInt8.ofNat (connectFlags c will l), (varint (c.len will l)).length)
      (frame 0x10 (connectBody0 c will l)) := by
  have hls := Connect.lenSpec c will l
  have key : Wr (Refusal (.Connect c will l)) (connectPre c will l)
      (((∀ s ∈ fields (.Connect c will l), s.length ≤ 65535) ∧
        ∀ q ∈ props (.Connect c will l), q.Fits) ∧ (connectBody0 c will l).length ≤ 268435455)
      (UInt8.ofNat (connectFlags c will l), (varint (c.len will l)).length)
      (frame 0x10 (connectBody0 c will l)) := by
    refine wr_frame' (fun hf => hls fun q hq => fitsNum_of_fits (hf.2 q hq))
      (refusal_len fun hf => ?_) fun hl => ?_
    · rw [← connectBody0_length]; exact (hls hf).1
    have hg1 : gLen (optList Spec.ConnectProperties.toList c.properties) ≤ 268435455 := by
      have := gLen_le_opt ConnectProperties.len_eq c.properties
      unfold Connect.len at hl; omega
    have hwill : Wr (Refusal (.Connect c will l)) (match (generalizing := false) will with
          | some w => w.write >>= fun f => pure (cleanFlags c ||| f)
          | none => pure (cleanFlags c) : M UInt8)
        (match (generalizing := false) will with
          | some w => (∀ q ∈ optList Spec.LastWillProperties.toList w.properties, q.Fits) ∧
            w.topic.length ≤ 65535 ∧ w.message.length ≤ 65535
          | none => True)
        (cleanFlags c ||| willFlags will)
        (optWillBytes will) := by
      cases will with
      | none => exact (Wr.pure _).congr Iff.rfl (fun _ => by simp [willFlags]) (fun _ => rfl)
      | some w =>
        have hg2 : gLen (optList Spec.LastWillProperties.toList w.properties) ≤ 268435455 := by
          have := gLen_le_opt LastWillProperties.len_eq w.properties
          unfold Connect.len at hl
          simp only [LastWill.len] at hl; omega
        refine (Wr.bind (f := fun f => pure (cleanFlags c ||| f)) (LastWill.write_wr ?_ ?_ ?_ hg2)
          (Wr.pure _)).congr ?_ (fun _ => rfl) ?_
        · simp [fields]
        · simp [fields]
        · intro q hq; simp [props, hq]
        · simp
        · intro _; simp [optWillBytes]
    have hlogin : ∀ f1 : UInt8, Wr (Refusal (.Connect c will l)) (match (generalizing := false) l with
          | some l => l.write >>= fun f => pure (f1 ||| f)
          | none => pure f1 : M UInt8)
        (match (generalizing := false) l with
          | some l => l.username.length ≤ 65535 ∧ l.password.length ≤ 65535
          | none => True)
        (f1 ||| loginFlags l)
        (optLoginBytes l) := by
      intro f1
      cases l with
      | none => exact (Wr.pure _).congr Iff.rfl (fun _ => by simp [loginFlags]) (fun _ => rfl)
      | some l =>
        refine (Wr.bind (f := fun f => pure (f1 ||| f)) (Login.write_wr ?_ ?_)
          (Wr.pure _)).congr ?_ (fun _ => rfl) ?_
        · simp [fields, texts]
        · simp [fields, texts]
        · simp
        · intro _; simp [optLoginBytes]
    refine (Wr.step (emits_string (by simp [Connect.protocolName])) (Wr.step (emits_u8 _)
      (Wr.step (emits_u8 _) (Wr.step (emits_u16 _)
      (Wr.bind (wr_props ConnectProperties.len_eq ConnectProperties.write_eq c.properties hg1 ?_)
      (Wr.bind (wr_str (s := c.client_id) (by simp [fields, texts]))
      (Wr.bind hwill (Wr.bind (f := fun f2 => pure (f2, (varint (c.len will l)).length))
        (hlogin (cleanFlags c ||| willFlags will)) (Wr.pure _))))))))).congr ?_ ?_ ?_
    · intro q hq e he; exact refusal_prop (by simp [props, hq]) he
    · cases will <;> cases l <;> simp [fields, texts, props, or_imp, forall_and] <;> grind
    · intro _; rw [connectFlags_eq]
    · intro _; simp [connectBody0]
  refine key.congr ?_ (fun _ => rfl) (fun _ => rfl)
  rw [connectBody0_length]
  simp [Encodable, maxVarint, and_assoc]

/-- The bytes after the flags byte. -/
theorem connect_patch (c : Connect) (will : Option LastWill) (l : Option Login) :
    (frame 0x10 (connectBody0 c will l)).set
        (8 + (varint (connectBody0 c will l).length).length)
        (UInt8.ofNat (connectFlags c will l))
      = encode (.Connect c will l) := by
  unfold encode frame
  rw [← connectBody0_length]
  show List.set (0x10 :: _) _ _ = 0x10 :: _
  rw [show 8 + (varint (connectBody0 c will l).length).length =
    ((varint (connectBody0 c will l).length).length + 7) + 1 by omega, List.set_cons_succ,
    List.set_append_right _ _ (by omega)]
  congr 2
  rw [show (varint (connectBody0 c will l).length).length + 7 -
    (varint (connectBody0 c will l).length).length = 7 by omega]
  rfl

/-- `Connect::write` on any buffer: what an encodable CONNECT does. The flags byte is patched at
an index counted from the start of the buffer. -/
theorem Connect.write_ok (c : Connect) (will : Option LastWill) (l : Option Login)
    (h : Encodable (.Connect c will l)) (b : Bytes) :
    c.write will l b = (.ok (encode (.Connect c will l)).length,
      (b ++ frame 0x10 (connectBody0 c will l)).set
        (8 + (varint (body (.Connect c will l)).length).length)
        (UInt8.ofNat (connectFlags c will l))) := by
  have hlen : c.len will l = (body (.Connect c will l)).length := by
    have h2 := Connect.lenSpec c will l (fun q hq => fitsNum_of_fits (h.2.1 q hq))
    rw [← connectBody0_length]
    refine h2.2 ?_
    have := h2.1
    have := h.2.2.1
    rw [connectBody0_length] at *
    unfold maxVarint at this; omega
  rw [Connect.write_eq, M.bind_ok ((connectPre_wr c will l).ok h b)]
  simp only [hlen]
  have hi : 1 + (varint (body (.Connect c will l)).length).length + 2 + 4 + 1 <
      (b ++ frame 0x10 (connectBody0 c will l)).length := by
    simp [frame, connectBody0_length]
    have : 8 ≤ (body (.Connect c will l)).length := by simp [body]; omega
    omega
  rw [M.bind_ok (a := ()) (b' := _) (by rw [setIndex, if_pos hi])]
  rw [show 1 + (varint (body (.Connect c will l)).length).length + 2 + 4 + 1 =
    8 + (varint (body (.Connect c will l)).length).length by omega]
  simp [encode, frame]; omega

/-- On an empty buffer the encoding results. -/
theorem Connect.write_nil (c : Connect) (will : Option LastWill) (l : Option Login)
    (h : Encodable (.Connect c will l)) :
    c.write will l [] = (.ok (encode (.Connect c will l)).length, encode (.Connect c will l)) := by
  rw [Connect.write_ok c will l h, List.nil_append, ← connectBody0_length, connect_patch]

/-- Failure: an error, and part of the encoding is appended. -/
theorem Connect.write_err (c : Connect) (will : Option LastWill) (l : Option Login)
    (h : ¬ Encodable (.Connect c will l)) :
    ∃ e w', Refusal (.Connect c will l) e ∧ Emits (c.write will l) (.err e) w' := by
  obtain ⟨e, w', hj, hw⟩ := (connectPre_wr c will l).err h
  exact ⟨e, w', hj, by rw [Connect.write_eq]; exact Emits.bind_err hw⟩

end Mqtt
