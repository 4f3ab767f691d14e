import Verif.Spec.Parts
import Verif.Proofs.Typed
import Verif.Proofs.RoundTrip
import Verif.Proofs.WriteConnect
import Verif.Proofs.WriteSub
import Verif.Proofs.Inject
/-
Readers and writers of parts of packets.
-/
namespace Mqtt

open Spec

variable {mode : StrMode}

theorem recordIO_of {σ : Type} {cond : σ → Prop} {write : σ → M Unit} {plen : σ → Nat}
    {toList : σ → List Property} {ofList : List Property → σ} {ids : List UInt8}
    {read : M (Option σ)} (hl : ∀ p, plen p = gLen (toList p))
    (hw : ∀ p, write p = write_remaining_length (plen p) >>= fun _ => gWrite (toList p))
    (hr : read = gRead mode ids >>= fun o => pure (o.map ofList))
    (ho : ∀ p, ofList (toList p) = p) (ha : ∀ p, ∀ q ∈ toList p, q.id ∈ ids)
    (hd : ∀ p, (∀ q ∈ toList p, q.Fits) → cond p → DriftSafe (toList p)) :
    RecordIO mode cond toList write read := by
  intro p b
  refine ⟨?_, ?_, ?_⟩
  · rintro ⟨hf, hb⟩
    rw [hw, hl, gLen_eq fun q hq => fitsNum_of_fits (hf q hq)]
    exact (Emits.bind (write_remaining_length_emits hb) (gWrite_emits hf)) b
  · intro h
    rw [hw]
    by_cases hb : plen p ≤ 268435455
    · by_cases hf : ∀ q ∈ toList p, q.Fits
      · refine absurd ⟨hf, ?_⟩ h
        rw [← gLen_eq fun q hq => fitsNum_of_fits (hf q hq), ← hl]; exact hb
      · obtain ⟨q, -, e, w, -, hg⟩ := gWrite_err hf
        exact ⟨e, _, Emits.bind (write_remaining_length_emits hb) hg b⟩
    · exact ⟨_, _, Emits.bind_err (write_remaining_length_err (by omega)) b⟩
  · rintro ⟨hf, hb⟩ ht hc rest
    refine (props_ok hr).2 ⟨if toList p = [] then none else some (toList p), _, rfl, ?_, ?_⟩
    · by_cases hn : toList p = []
      · rw [if_pos hn, hn]; exact propSec_nil
      · rw [if_neg hn]
        exact propSec_enc hn hf (fun q hq => ⟨ha p q hq, ht q hq⟩) (hd p hf hc) hb
    · by_cases hn : toList p = []
      · rw [if_pos hn, if_pos hn]; rfl
      · rw [if_neg hn, if_neg hn, Option.map_some, ho]

theorem ConnectProperties.io (mode : StrMode) : RecordIO mode (fun _ => True) Spec.ConnectProperties.toList
    ConnectProperties.write (ConnectProperties.read mode) :=
  recordIO_of ConnectProperties.len_eq ConnectProperties.write_eq (ConnectProperties.read_eq mode)
    ConnectProperties.ofList_toList ConnectProperties.toList_allowed
    (fun p hf _ => driftSafe_zero hf
      (subIds_zero fun q hq he => (by decide : (0x0B : UInt8) ∉ Spec.ConnectProperties.allowed)
        (he ▸ ConnectProperties.toList_allowed p q hq)))

theorem LastWillProperties.io (mode : StrMode) : RecordIO mode (fun _ => True) Spec.LastWillProperties.toList
    LastWillProperties.write (LastWillProperties.read mode) :=
  recordIO_of LastWillProperties.len_eq LastWillProperties.write_eq (LastWillProperties.read_eq mode)
    LastWillProperties.ofList_toList LastWillProperties.toList_allowed
    (fun p hf _ => driftSafe_zero hf
      (subIds_zero fun q hq he => (by decide : (0x0B : UInt8) ∉ Spec.LastWillProperties.allowed)
        (he ▸ LastWillProperties.toList_allowed p q hq)))

theorem ConnAckProperties.io (mode : StrMode) : RecordIO mode (fun _ => True) Spec.ConnAckProperties.toList
    ConnAckProperties.write (ConnAckProperties.read mode) :=
  recordIO_of ConnAckProperties.len_eq ConnAckProperties.write_eq (ConnAckProperties.read_eq mode)
    ConnAckProperties.ofList_toList ConnAckProperties.toList_allowed
    (fun p hf _ => driftSafe_zero hf
      (subIds_zero fun q hq he => (by decide : (0x0B : UInt8) ∉ Spec.ConnAckProperties.allowed)
        (he ▸ ConnAckProperties.toList_allowed p q hq)))

theorem PublishProperties.io (mode : StrMode) : RecordIO mode (fun p => DriftSafe (Spec.PublishProperties.toList p)) Spec.PublishProperties.toList
    PublishProperties.write (PublishProperties.read mode) :=
  recordIO_of PublishProperties.len_eq PublishProperties.write_eq (PublishProperties.read_eq mode)
    PublishProperties.ofList_toList PublishProperties.toList_allowed
    (fun _ _ h => h)

theorem PubAckProperties.io (mode : StrMode) : RecordIO mode (fun _ => True) Spec.PubAckProperties.toList
    PubAckProperties.write (PubAckProperties.read mode) :=
  recordIO_of PubAckProperties.len_eq PubAckProperties.write_eq (PubAckProperties.read_eq mode)
    PubAckProperties.ofList_toList PubAckProperties.toList_allowed
    (fun p hf _ => driftSafe_zero hf
      (subIds_zero fun q hq he => (by decide : (0x0B : UInt8) ∉ Spec.PubAckProperties.allowed)
        (he ▸ PubAckProperties.toList_allowed p q hq)))

theorem PubRecProperties.io (mode : StrMode) : RecordIO mode (fun _ => True) Spec.PubRecProperties.toList
    PubRecProperties.write (PubRecProperties.read mode) :=
  recordIO_of PubRecProperties.len_eq PubRecProperties.write_eq (PubRecProperties.read_eq mode)
    PubRecProperties.ofList_toList PubRecProperties.toList_allowed
    (fun p hf _ => driftSafe_zero hf
      (subIds_zero fun q hq he => (by decide : (0x0B : UInt8) ∉ Spec.PubRecProperties.allowed)
        (he ▸ PubRecProperties.toList_allowed p q hq)))

theorem PubRelProperties.io (mode : StrMode) : RecordIO mode (fun _ => True) Spec.PubRelProperties.toList
    PubRelProperties.write (PubRelProperties.read mode) :=
  recordIO_of PubRelProperties.len_eq PubRelProperties.write_eq (PubRelProperties.read_eq mode)
    PubRelProperties.ofList_toList PubRelProperties.toList_allowed
    (fun p hf _ => driftSafe_zero hf
      (subIds_zero fun q hq he => (by decide : (0x0B : UInt8) ∉ Spec.PubRelProperties.allowed)
        (he ▸ PubRelProperties.toList_allowed p q hq)))

theorem PubCompProperties.io (mode : StrMode) : RecordIO mode (fun _ => True) Spec.PubCompProperties.toList
    PubCompProperties.write (PubCompProperties.read mode) :=
  recordIO_of PubCompProperties.len_eq PubCompProperties.write_eq (PubCompProperties.read_eq mode)
    PubCompProperties.ofList_toList PubCompProperties.toList_allowed
    (fun p hf _ => driftSafe_zero hf
      (subIds_zero fun q hq he => (by decide : (0x0B : UInt8) ∉ Spec.PubCompProperties.allowed)
        (he ▸ PubCompProperties.toList_allowed p q hq)))

theorem SubscribeProperties.io (mode : StrMode) : RecordIO mode (fun _ => True) Spec.SubscribeProperties.toList
    SubscribeProperties.write (SubscribeProperties.read mode) :=
  recordIO_of SubscribeProperties.len_eq SubscribeProperties.write_eq (SubscribeProperties.read_eq mode)
    SubscribeProperties.ofList_toList SubscribeProperties.toList_allowed
    (fun p hf _ => driftSafe_of_le_one hf (SubscribeProperties.subIds_le p))

theorem SubAckProperties.io (mode : StrMode) : RecordIO mode (fun _ => True) Spec.SubAckProperties.toList
    SubAckProperties.write (SubAckProperties.read mode) :=
  recordIO_of SubAckProperties.len_eq SubAckProperties.write_eq (SubAckProperties.read_eq mode)
    SubAckProperties.ofList_toList SubAckProperties.toList_allowed
    (fun p hf _ => driftSafe_zero hf
      (subIds_zero fun q hq he => (by decide : (0x0B : UInt8) ∉ Spec.SubAckProperties.allowed)
        (he ▸ SubAckProperties.toList_allowed p q hq)))

theorem UnsubscribeProperties.io (mode : StrMode) : RecordIO mode (fun _ => True) Spec.UnsubscribeProperties.toList
    UnsubscribeProperties.write (UnsubscribeProperties.read mode) :=
  recordIO_of UnsubscribeProperties.len_eq UnsubscribeProperties.write_eq (UnsubscribeProperties.read_eq mode)
    UnsubscribeProperties.ofList_toList UnsubscribeProperties.toList_allowed
    (fun p hf _ => driftSafe_zero hf
      (subIds_zero fun q hq he => (by decide : (0x0B : UInt8) ∉ Spec.UnsubscribeProperties.allowed)
        (he ▸ UnsubscribeProperties.toList_allowed p q hq)))

theorem UnsubAckProperties.io (mode : StrMode) : RecordIO mode (fun _ => True) Spec.UnsubAckProperties.toList
    UnsubAckProperties.write (UnsubAckProperties.read mode) :=
  recordIO_of UnsubAckProperties.len_eq UnsubAckProperties.write_eq (UnsubAckProperties.read_eq mode)
    UnsubAckProperties.ofList_toList UnsubAckProperties.toList_allowed
    (fun p hf _ => driftSafe_zero hf
      (subIds_zero fun q hq he => (by decide : (0x0B : UInt8) ∉ Spec.UnsubAckProperties.allowed)
        (he ▸ UnsubAckProperties.toList_allowed p q hq)))

theorem DisconnectProperties.io (mode : StrMode) : RecordIO mode (fun _ => True) Spec.DisconnectProperties.toList
    DisconnectProperties.write (DisconnectProperties.extract mode) :=
  recordIO_of DisconnectProperties.len_eq DisconnectProperties.write_eq (DisconnectProperties.read_eq mode)
    DisconnectProperties.ofList_toList DisconnectProperties.toList_allowed
    (fun p hf _ => driftSafe_zero hf
      (subIds_zero fun q hq he => (by decide : (0x0B : UInt8) ∉ Spec.DisconnectProperties.allowed)
        (he ▸ DisconnectProperties.toList_allowed p q hq)))

/-! ### Subscriptions -/

theorem Filter.write_emits (f : Filter) (h : f.path.length ≤ 65535) :
    Emits f.write (.ok ()) (filterBytes f) := by
  refine (Emits.bind (emits_string h) (emits_u8 f.options)).congr ?_
  rw [Filter.options_eq]; rfl

theorem filterRep_bytes {f : Filter} (h : TextField mode f.path) :
    FilterRep mode f (filterBytes f) := by
  refine ⟨h, _, ?_, rfl⟩
  have := filterOptions_lt f
  rw [UInt8.toNat_ofNat']
  omega

theorem Filter.read_all (fs : List Filter) (h : ∀ f ∈ fs, TextField mode f.path) :
    Filter.read mode (fs.flatMap filterBytes) = (.ok fs, []) := by
  unfold Filter.read
  rw [getBuf_bind]
  rw [Filter.readLoop_eq]
  refine (gSeq_ok Filter.one_ok Filter.one_pos _ (Nat.lt_succ_self _)).2 ⟨rfl, fs, rfl, ?_⟩
  induction fs with
  | nil => exact .nil
  | cons f fs ih =>
    exact .cons (filterRep_bytes (h f (by simp))) (ih fun g hg => h g (by simp [hg]))

/-! ### Wills and logins -/

theorem optList_allowed {σ : Type} {toList : σ → List Property} {ids : List UInt8}
    (h : ∀ p, ∀ q ∈ toList p, q.id ∈ ids) (o : Option σ) : ∀ q ∈ optList toList o, q.id ∈ ids := by
  cases o with
  | none => intro q hq; simp [optList] at hq
  | some p => exact h p

theorem optRecord_ok {σ : Type} {cond : σ → Prop} {toList : σ → List Property}
    {write : σ → M Unit} {read : M (Option σ)} (h : RecordIO mode cond toList write read)
    (o : Option σ) (hf : ∀ q ∈ optList toList o, q.Fits)
    (hl : (encProps (optList toList o)).length ≤ maxVarint) (b : Bytes) :
    writeOptProps write o b = (.ok (), b ++ optSection toList o) := by
  cases o with
  | some p => exact (h p b).1 ⟨hf, hl⟩
  | none =>
    have := emits_unit_bind_pure (write_remaining_length_emits (n := 0) (by omega)) b
    rw [varint_zero] at this
    rw [optSection, propSection_nil]
    exact this

theorem optRecord_err {σ : Type} {cond : σ → Prop} {toList : σ → List Property}
    {write : σ → M Unit} {read : M (Option σ)} (h : RecordIO mode cond toList write read)
    (o : Option σ) (hn : ¬ ((∀ q ∈ optList toList o, q.Fits) ∧
    (encProps (optList toList o)).length ≤ maxVarint)) (b : Bytes) :
    ∃ e w, writeOptProps write o b = (.err e, b ++ w) := by
  cases o with
  | some p => exact (h p b).2.1 hn
  | none => exact absurd ⟨fun q hq => by simp [optList] at hq, by simp [optList, encProps]⟩ hn

theorem LastWill.write_eq' (w : LastWill) : w.write =
    writeOptProps LastWillProperties.write w.properties >>= fun _ =>
    write_mqtt_string w.topic >>= fun _ => write_mqtt_string w.message >>= fun _ =>
    pure (willFlags (some w)) := rfl

theorem write_string_cases (s b : Bytes) :
    (s.length ≤ 65535 ∧ write_mqtt_string s b = (.ok (), b ++ str s)) ∨
    (65535 < s.length ∧ write_mqtt_string s b = (.err .BinaryDataTooLong, b)) := by
  by_cases h : s.length ≤ 65535
  · exact .inl ⟨h, emits_string h b⟩
  · have := emits_bytes_err (s := s) (by omega) b
    rw [List.append_nil] at this
    exact .inr ⟨by omega, this⟩

theorem willFlags_toNat (w : LastWill) :
    (willFlags (some w)).toNat = 4 + 8 * qosNum w.qos + 32 * bit w.retain := by
  obtain ⟨_, _, q, r, _⟩ := w
  cases q <;> cases r <;>
    simp only [willFlags, QoS.toU8, qosNum, bit, Bool.false_eq_true, if_true, if_false] <;> rfl

theorem loginFlags_toNat (l : Login) :
    (loginFlags (some l)).toNat =
      64 * bit (!l.password.isEmpty) + 128 * bit (!l.username.isEmpty) := by
  obtain ⟨u, p⟩ := l
  cases u <;> cases p <;>
    simp only [loginFlags, bit, Bool.false_eq_true, if_true, if_false, List.isEmpty,
      Bool.not_true, Bool.not_false] <;> rfl

theorem LastWill.read_bytes {w : LastWill} {x : UInt8} (rest : Bytes)
    (hx : x.toNat / 4 % 16 = 1 + 2 * qosNum w.qos + 8 * bit w.retain)
    (hf : ∀ q ∈ optList Spec.LastWillProperties.toList w.properties, q.Fits)
    (hl : (encProps (optList Spec.LastWillProperties.toList w.properties)).length ≤ maxVarint)
    (ht : w.topic.length ≤ 65535) (hm : w.message.length ≤ 65535)
    (htx : ∀ q ∈ optList Spec.LastWillProperties.toList w.properties, q.TextsOk mode) :
    LastWill.read mode x (willBytes w ++ rest) = (.ok (some { w with
      properties := normProps Spec.LastWillProperties.toList w.properties }), rest) := by
  have hq : qosNum w.qos < 3 := by cases w.qos <;> decide
  have hb : bit w.retain < 2 := by cases w.retain <;> decide
  refine LastWill.read_ok.2 ⟨_, rfl, ?_, ?_, ?_, ht, hm,
    (if optList Spec.LastWillProperties.toList w.properties = [] then none
      else some (optList Spec.LastWillProperties.toList w.properties)),
    optSection Spec.LastWillProperties.toList w.properties, ?_, ?_, rfl⟩
  · omega
  · show qosNum w.qos = _; omega
  · show bit w.retain = _; omega
  · rw [optSection_eq]
    split
    · rename_i h; rw [h]; exact propSec_nil
    · rename_i h
      exact propSec_enc h hf (fun q hq => ⟨optList_allowed LastWillProperties.toList_allowed _ q hq, htx q hq⟩)
        (driftSafe_zero hf (subIds_zero fun q hq he =>
          (by decide : (0x0B : UInt8) ∉ Spec.LastWillProperties.allowed)
            (he ▸ optList_allowed LastWillProperties.toList_allowed _ q hq))) hl
  · show normProps _ _ = _
    cases w.properties with
    | none => rfl
    | some p =>
      simp only [optList, normProps]
      by_cases h : Spec.LastWillProperties.toList p = []
      · simp [h, Option.filter]
      · simp [h, Option.filter, LastWillProperties.ofList_toList]

/-- The writer of a will, called directly. -/
theorem LastWill.write_io (w : LastWill) (b : Bytes) :
    let fits := (∀ q ∈ optList Spec.LastWillProperties.toList w.properties, q.Fits) ∧
      (encProps (optList Spec.LastWillProperties.toList w.properties)).length ≤ maxVarint ∧
      w.topic.length ≤ 65535 ∧ w.message.length ≤ 65535
    (fits → w.write b = (.ok (willFlags (some w)), b ++ willBytes w)) ∧
    (¬ fits → ∃ e x, w.write b = (.err e, b ++ x)) := by
  refine ⟨?_, ?_⟩
  · rintro ⟨hf, hl, ht, hm⟩
    rw [LastWill.write_eq', M.bind_ok (optRecord_ok (LastWillProperties.io .binary) _ hf hl b),
      M.bind_ok (emits_string ht _), M.bind_ok (emits_string hm _)]
    simp [willBytes, M.pure_apply]
  · intro h
    rw [LastWill.write_eq']
    by_cases hp : (∀ q ∈ optList Spec.LastWillProperties.toList w.properties, q.Fits) ∧
      (encProps (optList Spec.LastWillProperties.toList w.properties)).length ≤ maxVarint
    · rw [M.bind_ok (optRecord_ok (LastWillProperties.io .binary) _ hp.1 hp.2 b)]
      rcases write_string_cases w.topic
        (b ++ optSection Spec.LastWillProperties.toList w.properties) with ⟨ht, e⟩ | ⟨-, e⟩
      · rw [M.bind_ok e]
        rcases write_string_cases w.message
          (b ++ optSection Spec.LastWillProperties.toList w.properties ++ str w.topic)
          with ⟨hm, e⟩ | ⟨-, e⟩
        · exact absurd ⟨hp.1, hp.2, ht, hm⟩ h
        · rw [M.bind_err e]
          exact ⟨_, _, by rw [List.append_assoc]⟩
      · rw [M.bind_err e]
        exact ⟨_, _, rfl⟩
    · obtain ⟨e, x, h⟩ := optRecord_err (LastWillProperties.io .binary) _ hp b
      exact ⟨e, x, by rw [M.bind_err h]⟩

/-- The writer of a login, called directly. -/
theorem Login.write_io (l : Login) (b : Bytes) :
    let fits := l.username.length ≤ 65535 ∧ l.password.length ≤ 65535
    (fits → l.write b = (.ok (loginFlags (some l)), b ++ loginBytes l)) ∧
    (¬ fits → ∃ x, l.write b = (.err .BinaryDataTooLong, b ++ x)) := by
  have aux : ∀ (s b : Bytes) (f g : UInt8),
      (s.length ≤ 65535 ∧
        (if s.isEmpty then pure f else write_mqtt_string s >>= fun _ => pure (f ||| g)) b =
          (.ok (if s.isEmpty then f else f ||| g), b ++ optStr s)) ∨
      (65535 < s.length ∧
        (if s.isEmpty then pure f else write_mqtt_string s >>= fun _ => pure (f ||| g)) b =
          (.err .BinaryDataTooLong, b)) := by
    intro s b f g
    cases s with
    | nil => exact .inl ⟨by simp, by simp [optStr, M.pure_apply]⟩
    | cons x s =>
      rcases write_string_cases (x :: s) b with ⟨h, e⟩ | ⟨h, e⟩
      · exact .inl ⟨h, M.bind_ok e⟩
      · exact .inr ⟨h, M.bind_err e⟩
  refine ⟨fun hf => ?_, fun hf => ?_⟩
  · rcases aux l.username b 0 0x80 with ⟨-, e⟩ | ⟨h, -⟩
    · rcases aux l.password (b ++ optStr l.username)
        (if l.username.isEmpty then 0 else 0 ||| 0x80) 0x40 with ⟨-, e'⟩ | ⟨h, -⟩
      · refine (M.bind_ok e).trans (e'.trans ?_)
        rw [List.append_assoc]; rfl
      · omega
    · omega
  · rcases aux l.username b 0 0x80 with ⟨hu, e⟩ | ⟨-, e⟩
    · rcases aux l.password (b ++ optStr l.username)
        (if l.username.isEmpty then 0 else 0 ||| 0x80) 0x40 with ⟨hp, -⟩ | ⟨-, e'⟩
      · exact absurd ⟨hu, hp⟩ hf
      · exact ⟨_, (M.bind_ok e).trans e'⟩
    · exact ⟨[], by rw [List.append_nil]; exact M.bind_err e⟩

/-- The reader of a login, on what the writer produces. -/
theorem Login.read_bytes {l : Login} {x : UInt8} (rest : Bytes)
    (hx : x.toNat / 64 = bit (!l.password.isEmpty) + 2 * bit (!l.username.isEmpty))
    (hu : TextField mode l.username) (hp : TextField mode l.password) :
    Login.read mode x (loginBytes l ++ rest) =
      (.ok (if l.username = [] ∧ l.password = [] then none else some l), rest) := by
  have h1 : bit (!l.password.isEmpty) < 2 := by cases l.password.isEmpty <;> decide
  have h2 : bit (!l.username.isEmpty) < 2 := by cases l.username.isEmpty <;> decide
  refine Login.read_ok.2 ⟨_, rfl, l.username, l.password, _, _, flagField_enc ?_ hu,
    flagField_enc ?_ hp, rfl, rfl⟩ <;> omega

end Mqtt
