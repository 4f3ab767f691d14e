import Verif.Proofs.WriteConnect
import Verif.Spec.Api
/-
`Packet::write` for all packets.
-/
set_option linter.unusedSimpArgs false

namespace Mqtt

open Spec

theorem legacy_iff (p : ConnAck) : Legacy (.ConnAck p) ↔ connAckCode p.code = none := by
  show (p.code = _ ∨ p.code = _ ∨ p.code = _) ↔ _
  generalize p.code = c
  cases c <;> simp [connAckCode]

theorem sound_iff (d : Disconnect) : Sound (.Disconnect d) ↔ d.Sound := Iff.rfl

/-- Every packet but CONNECT, an unsound DISCONNECT or a legacy CONNACK. -/
theorem write_wr {p : Packet} (hc : ¬ IsConnect p) (hl : ¬ Legacy p) (hs : Sound p) :
    Wr (Refusal p) p.write (Encodable p) (encode p).length (encode p) := by
  cases p
  case Connect => exact absurd trivial hc
  case ConnAck p => exact ConnAck.write_wr p fun h => hl ((legacy_iff p).2 h)
  case Publish p => exact Publish.write_wr p
  case PubAck p => exact PubAck.write_wr p
  case PubRec p => exact PubRec.write_wr p
  case PubRel p => exact PubRel.write_wr p
  case PubComp p => exact PubComp.write_wr p
  case Subscribe p => exact Subscribe.write_wr p
  case SubAck p => exact SubAck.write_wr p
  case Unsubscribe p => exact Unsubscribe.write_wr p
  case UnsubAck p => exact UnsubAck.write_wr p
  case PingReq => exact PingReq.write_wr
  case PingResp => exact PingResp.write_wr
  case Disconnect p => exact Disconnect.write_wr p hs

/-- The unsound DISCONNECTs. -/
theorem unsound_emits {d : Disconnect} (h : ¬ Sound (.Disconnect d)) :
    (d.properties = none ∧ d.reason_code ≠ .NormalDisconnection ∧
      Emits d.write (.ok 3) [0xE0, 0x01, disconnectCode d.reason_code, 0x00]) ∨
    (∃ q, d.properties = some q ∧ Spec.DisconnectProperties.toList q = [] ∧
      Emits d.write (.ok 2) [0xE0, 0x00]) := by
  replace h : ¬ d.Sound := h
  unfold Disconnect.Sound at h
  cases hp : d.properties with
  | none =>
    rw [hp] at h
    exact .inl ⟨rfl, h, Disconnect.write_none hp h⟩
  | some q =>
    rw [hp] at h
    have hq := Classical.not_not.1 h
    exact .inr ⟨q, rfl, hq, Disconnect.write_empty hp hq⟩

theorem unsound_encodable {d : Disconnect} (h : ¬ Sound (.Disconnect d)) :
    Encodable (.Disconnect d) := by
  have hv : varint 0 = [0] := by rw [varint, if_pos (by omega)]; rfl
  have hb : (propSection []).length = 1 := by rw [propSection_nil]; rfl
  rcases unsound_emits h with ⟨hp, hr, -⟩ | ⟨q, hp, hq, -⟩
  · refine ⟨by simp [fields, texts], by simp [props, hp, optList], ?_, trivial⟩
    simp only [body, ackTail, hp]
    split
    · simp
    · simp [hb, maxVarint]
  · refine ⟨by simp [fields, texts], by simp [props, hp, optList, hq], ?_, trivial⟩
    simp only [body, ackTail, hp, hq]
    simp [hb, maxVarint]

theorem unsound_cases {p : Packet} (h : ¬ Sound p) : ∃ d, p = .Disconnect d := by
  cases p <;> first | exact ⟨_, rfl⟩ | exact absurd trivial h

theorem legacy_cases {p : Packet} (h : Legacy p) : ∃ c, p = .ConnAck c := by
  cases p <;> first | exact ⟨_, rfl⟩ | exact absurd h (by simp [Legacy])

theorem connect_cases {p : Packet} (h : IsConnect p) : ∃ c w l, p = .Connect c w l := by
  cases p <;> first | exact ⟨_, _, _, rfl⟩ | exact absurd h (by simp [IsConnect])

theorem connAck_legacy {p : ConnAck} (h : Legacy (.ConnAck p)) :
    (p.len ≤ 268435455 ∧ ∃ w, Emits p.write .panic w) ∨
    (268435455 < p.len ∧ Emits p.write (.err .PayloadTooLong) [0x20]) := by
  by_cases hl : p.len ≤ 268435455
  · exact .inl ⟨hl, _, ConnAck.write_panic p ((legacy_iff p).1 h) hl⟩
  · refine .inr ⟨by omega, ?_⟩
    unfold ConnAck.write
    exact Emits.bind (w2 := []) (emits_u8 _)
      (Emits.bind_err (write_remaining_length_err (by omega)))

theorem not_encodable_legacy {p : Packet} (h : Legacy p) : ¬ Encodable p := by
  obtain ⟨c, rfl⟩ := legacy_cases h
  intro he
  exact he.2.2.2 ((legacy_iff c).1 h)

/-- Writing an encodable sound packet. -/
theorem write_encode {p : Packet} (he : Encodable p) (hs : Sound p) {b : Bytes}
    (hb : IsConnect p → b = []) : p.write b = (.ok (encode p).length, b ++ encode p) := by
  by_cases hc : IsConnect p
  · obtain ⟨c, w, l, rfl⟩ := connect_cases hc
    rw [hb hc]
    exact Connect.write_nil c w l he
  · exact (write_wr hc (fun h => not_encodable_legacy h he) hs).ok he b

/-- Refusing an unencodable packet that is not a legacy CONNACK. -/
theorem write_refuse {p : Packet} (he : ¬ Encodable p) (hl : ¬ Legacy p) :
    ∃ e w, Refusal p e ∧ Emits p.write (.err e) w := by
  have hs : Sound p := by
    apply Classical.byContradiction
    intro h
    obtain ⟨d, rfl⟩ := unsound_cases h
    exact he (unsound_encodable h)
  by_cases hc : IsConnect p
  · obtain ⟨c, w, l, rfl⟩ := connect_cases hc
    exact Connect.write_err c w l he
  · exact (write_wr hc hl hs).err he

/-- A successful write is the write of an encodable packet. -/
theorem encodable_of_ok {p : Packet} {b b' : Bytes} {n : Nat} (h : p.write b = (.ok n, b')) :
    Encodable p := by
  apply Classical.byContradiction
  intro he
  by_cases hl : Legacy p
  · obtain ⟨c, rfl⟩ := legacy_cases hl
    rcases connAck_legacy hl with ⟨-, w, hw⟩ | ⟨-, hw⟩
    · have := (hw b).symm.trans h; simp at this
    · have := (hw b).symm.trans h; simp at this
  · obtain ⟨e, w, -, hw⟩ := write_refuse he hl
    have := (hw b).symm.trans h
    simp at this

/-- The result of a successful write of a sound packet. -/
theorem write_ok_inv {p : Packet} {b b' : Bytes} {n : Nat} (h : p.write b = (.ok n, b'))
    (hs : Sound p) (hb : IsConnect p → b = []) :
    Encodable p ∧ n = (encode p).length ∧ b' = b ++ encode p := by
  have he := encodable_of_ok h
  rw [write_encode he hs hb] at h
  simp only [Prod.mk.injEq, Out.ok.injEq] at h
  exact ⟨he, h.1.symm, h.2.symm⟩

/-! ### Returned sizes -/

/-- `m` can only return `n`. -/
def Returns {α : Type} (m : M α) (n : α) : Prop := ∀ b a b', m b = (.ok a, b') → a = n

namespace Returns

variable {α β : Type}

theorem pure (n : α) : Returns (Pure.pure n : M α) n := by
  intro b a b' h; simp at h; exact h.1.symm

theorem bind {m : M α} {f : α → M β} {n : β} (h : ∀ a, Returns (f a) n) :
    Returns (m >>= f) n := by
  intro b c b' hb
  obtain ⟨a, b1, -, h2⟩ := M.bind_eq_ok.1 hb
  exact h a _ _ _ h2

theorem bind' {m : M α} {f : α → M β} {k : α} {n : β} (h1 : Returns m k)
    (h2 : Returns (f k) n) : Returns (m >>= f) n := by
  intro b c b' hb
  obtain ⟨a, b1, h3, h4⟩ := M.bind_eq_ok.1 hb
  rw [h1 _ _ _ h3] at h4
  exact h2 _ _ _ h4

theorem ite {c : Prop} [Decidable c] {m1 m2 : M α} {n : α} (h1 : c → Returns m1 n)
    (h2 : ¬ c → Returns m2 n) : Returns (if c then m1 else m2) n := by
  split
  · exact h1 ‹_›
  · exact h2 ‹_›

end Returns

theorem returns_rem (n : Nat) : Returns (write_remaining_length n) (len_len n) := by
  intro b a b' h
  by_cases hn : n ≤ 268435455
  · rw [write_remaining_length_emits hn b] at h
    simp only [Prod.mk.injEq, Out.ok.injEq] at h
    rw [len_len_eq hn]; exact h.1.symm
  · rw [write_remaining_length_err (by omega) b] at h
    simp at h

macro "returns_tac" : tactic => `(tactic|
  repeat' (first
    | exact Returns.pure _
    | (refine Returns.bind' (returns_rem _) ?_)
    | (refine Returns.bind fun _ => ?_)
    | (refine Returns.ite (fun _ => ?_) (fun _ => ?_))))

theorem PubAck.write_returns (p : PubAck) : Returns p.write p.size := by
  unfold PubAck.write PubAck.size
  by_cases h : p.reason = .Success ∧ p.properties = none
  · simp only [if_pos h]; returns_tac
  · simp only [if_neg h]; returns_tac

theorem PubRec.write_returns (p : PubRec) : Returns p.write p.size := by
  by_cases h : p.reason = .Success ∧ p.properties = none
  · have hs : p.size = 4 := by
      unfold PubRec.size
      have : p.len = 2 := by unfold PubRec.len; simp [h]
      rw [this]; rfl
    rw [hs]
    unfold PubRec.write
    simp only [if_pos h]; returns_tac
  unfold PubRec.write PubRec.size
  by_cases h : p.reason = .Success ∧ p.properties = none
  · contradiction
  · simp only [if_neg h]; returns_tac

theorem PubRel.write_returns (p : PubRel) : Returns p.write p.size := by
  unfold PubRel.write PubRel.size
  by_cases h : p.reason = .Success ∧ p.properties = none
  · simp only [if_pos h]; returns_tac
  · simp only [if_neg h]; returns_tac

theorem PubComp.write_returns (p : PubComp) : Returns p.write p.size := by
  unfold PubComp.write PubComp.size
  by_cases h : p.reason = .Success ∧ p.properties = none
  · simp only [if_pos h]; returns_tac
  · simp only [if_neg h]; returns_tac

theorem Disconnect.write_returns (p : Disconnect) : Returns p.write p.size := by
  unfold Disconnect.write Disconnect.size
  by_cases h : p.len = 2
  · simp only [if_pos h]; returns_tac
  · simp only [if_neg h]; returns_tac

theorem ConnAck.write_returns (p : ConnAck) : Returns p.write p.size := by
  unfold ConnAck.write ConnAck.size; returns_tac

theorem Publish.write_returns (p : Publish) : Returns p.write p.size := by
  unfold Publish.write Publish.size; returns_tac

theorem Subscribe.write_returns (p : Subscribe) : Returns p.write p.size := by
  unfold Subscribe.write Subscribe.size; returns_tac

theorem SubAck.write_returns (p : SubAck) : Returns p.write p.size := by
  unfold SubAck.write SubAck.size; returns_tac

theorem Unsubscribe.write_returns (p : Unsubscribe) : Returns p.write p.size := by
  unfold Unsubscribe.write Unsubscribe.size; returns_tac

theorem UnsubAck.write_returns (p : UnsubAck) : Returns p.write p.size := by
  unfold UnsubAck.write UnsubAck.size; returns_tac

theorem write_size {p : Packet} {b b' : Bytes} {n : Nat} (h : p.write b = (.ok n, b')) :
    SizeIs n p := by
  cases p
  case Connect => trivial
  case PingReq => trivial
  case PingResp => trivial
  case ConnAck p => exact p.write_returns _ _ _ h
  case Publish p => exact p.write_returns _ _ _ h
  case PubAck p => exact p.write_returns _ _ _ h
  case PubRec p => exact p.write_returns _ _ _ h
  case PubRel p => exact p.write_returns _ _ _ h
  case PubComp p => exact p.write_returns _ _ _ h
  case Subscribe p => exact p.write_returns _ _ _ h
  case SubAck p => exact p.write_returns _ _ _ h
  case Unsubscribe p => exact p.write_returns _ _ _ h
  case UnsubAck p => exact p.write_returns _ _ _ h
  case Disconnect p => exact p.write_returns _ _ _ h

/-! ### Writing never touches what is there, CONNECT apart -/

theorem write_emits {p : Packet} (hc : ¬ IsConnect p) : ∃ o w, Emits p.write o w := by
  by_cases he : Encodable p
  · by_cases hs : Sound p
    · exact ⟨_, _, (write_wr hc (fun h => not_encodable_legacy h he) hs).ok he⟩
    · obtain ⟨d, rfl⟩ := unsound_cases hs
      rcases unsound_emits hs with ⟨-, -, h⟩ | ⟨_, -, -, h⟩ <;> exact ⟨_, _, h⟩
  · by_cases hl : Legacy p
    · obtain ⟨c, rfl⟩ := legacy_cases hl
      rcases connAck_legacy hl with ⟨-, w, hw⟩ | ⟨-, hw⟩ <;> exact ⟨_, _, hw⟩
    · obtain ⟨e, w, -, hw⟩ := write_refuse he hl
      exact ⟨_, _, hw⟩

theorem write_not_diverge (p : Packet) (b : Bytes) : (p.write b).1 ≠ .diverge := by
  by_cases he : Encodable p
  · by_cases hc : IsConnect p
    · obtain ⟨c, w, l, rfl⟩ := connect_cases hc
      rw [show Packet.write (.Connect c w l) b = c.write w l b from rfl,
        Connect.write_ok c w l he b]
      simp
    · by_cases hs : Sound p
      · rw [write_encode he hs (fun h => absurd h hc)]; simp
      · obtain ⟨d, rfl⟩ := unsound_cases hs
        show (d.write b).1 ≠ _
        rcases unsound_emits hs with ⟨-, -, h⟩ | ⟨_, -, -, h⟩ <;> rw [h b] <;> simp
  · by_cases hl : Legacy p
    · obtain ⟨c, rfl⟩ := legacy_cases hl
      show (c.write b).1 ≠ _
      rcases connAck_legacy hl with ⟨-, w, hw⟩ | ⟨-, hw⟩ <;> rw [hw b] <;> simp
    · obtain ⟨e, w, -, hw⟩ := write_refuse he hl
      rw [hw b]; simp

end Mqtt
