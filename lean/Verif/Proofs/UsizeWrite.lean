import Verif.Model.UsizeWrite
import Verif.Proofs.UsizeEnc
import Verif.Proofs.WritePacket
/-
The whole writer with `w` bits: it does what the unbounded one does if the announced length is a
`usize`, and panics otherwise if the build has overflow checks.
-/
namespace Mqtt

open Spec (Checked varint)

variable {m : Build} {w : Nat}

theorem liftOut_ok_bind {α β : Type} (a : α) (f : α → M β) : (liftOut (.ok a) >>= f) = f a := rfl

theorem addB_small {a b : Nat} (h : a + b < 2 ^ w) : addB m w a b = .ok (a + b) := if_pos h

theorem writeRemLoopB_eq (hw : 32 ≤ w) (fuel x count : Nat) (h : fuel + count ≤ 10) :
    writeRemLoopB m w fuel x count = writeRemLoop fuel x count := by
  have := two_pow_gt hw
  induction fuel generalizing x count with
  | zero => rfl
  | succ fuel ih =>
    rw [writeRemLoopB, writeRemLoop]
    simp only [addB_small (m := m) (w := w) (a := count) (b := 1) (by omega), liftOut_ok_bind,
      ih _ (count + 1) (by omega)]

theorem write_remaining_lengthB_eq (hw : 32 ≤ w) (n : Nat) :
    write_remaining_lengthB m w n = write_remaining_length n := by
  unfold write_remaining_lengthB write_remaining_length
  rw [writeRemLoopB_eq hw 10 n 0 (by omega)]

/-- After a remaining length has been written it is below 2^28 and its width is at most four. -/
theorem rem_bind_congr {α : Type} {n : Nat} {f g : Nat → M α}
    (h : n ≤ 268435455 → ∀ c, c ≤ 4 → f c = g c) :
    (write_remaining_length n >>= f) = (write_remaining_length n >>= g) := by
  funext b
  by_cases hn : n ≤ 268435455
  · have hl : (varint n).length ≤ 4 := by
      have h1 := returns_rem n b _ _ (write_remaining_length_emits hn b)
      have h2 := len_len_le n
      omega
    rw [M.bind_ok (write_remaining_length_emits hn b), M.bind_ok (write_remaining_length_emits hn b),
      h hn _ hl]
  · rw [M.bind_err (write_remaining_length_err (by omega) b),
      M.bind_err (write_remaining_length_err (by omega) b)]

theorem total_eq (hw : 32 ≤ w) {n c : Nat} (hn : n ≤ 268435455) (hc : c ≤ 4) :
    (liftOut (sumB m w 1 [c, n]) : M Nat) = pure (1 + c + n) := by
  have := two_pow_gt hw
  rw [(checked_sum (m := m) (a := 1) (by omega) [c, n]).1 (by simp; omega)]
  show (pure _ : M Nat) = _
  simp [Nat.add_assoc]

theorem index_eq {α : Type} (hw : 32 ≤ w) {c : Nat} (hc : c ≤ 4) (f : Nat → M α) :
    (liftOut (sumB m w 1 [c, 2, 4, 1]) >>= f) = f (1 + c + 2 + 4 + 1) := by
  have := two_pow_gt hw
  rw [(checked_sum (m := m) (a := 1) (by omega) [c, 2, 4, 1]).1 (by simp; omega)]
  show f _ = f _
  simp [Nat.add_assoc]

theorem writeOptPropsB_eq {σ : Type} (hw : 32 ≤ w) {wB wr : σ → M Unit} {plen : σ → Nat}
    (hp : ∀ p, plen p < 2 ^ w → wB p = wr p) {o : Option σ} (ho : optPropsLen plen o < 2 ^ w) :
    writeOptPropsB m w wB o = writeOptProps wr o := by
  cases o with
  | none => unfold writeOptPropsB writeOptProps; rw [write_remaining_lengthB_eq hw]
  | some p => exact hp p (by simp only [optPropsLen] at ho; omega)

theorem writeSubIdsB_eq (hw : 32 ≤ w) (ids : List Nat) :
    PublishProperties.writeSubIdsB m w ids = PublishProperties.writeSubIds ids := by
  induction ids with
  | nil => rfl
  | cons id ids ih =>
    rw [PublishProperties.writeSubIdsB, PublishProperties.writeSubIds, ih,
      write_remaining_lengthB_eq hw]

theorem ConnectProperties.writeB_eq (hw : 32 ≤ w) (p : ConnectProperties) (h : p.len < 2 ^ w) :
    p.writeB m w = p.write := by
  unfold ConnectProperties.writeB ConnectProperties.write
  rw [(p.checked hw).1 h, liftOut_ok_bind, write_remaining_lengthB_eq hw]

theorem LastWillProperties.writeB_eq (hw : 32 ≤ w) (p : LastWillProperties) (h : p.len < 2 ^ w) :
    p.writeB m w = p.write := by
  unfold LastWillProperties.writeB LastWillProperties.write
  rw [(p.checked hw).1 h, liftOut_ok_bind, write_remaining_lengthB_eq hw]

theorem ConnAckProperties.writeB_eq (hw : 32 ≤ w) (p : ConnAckProperties) (h : p.len < 2 ^ w) :
    p.writeB m w = p.write := by
  unfold ConnAckProperties.writeB ConnAckProperties.write
  rw [(p.checked hw).1 h, liftOut_ok_bind, write_remaining_lengthB_eq hw]

theorem PublishProperties.writeB_eq (hw : 32 ≤ w) (p : PublishProperties) (h : p.len < 2 ^ w) :
    p.writeB m w = p.write := by
  unfold PublishProperties.writeB PublishProperties.write
  rw [(p.checked hw).1 h, liftOut_ok_bind, write_remaining_lengthB_eq hw, writeSubIdsB_eq hw]

theorem PubAckProperties.writeB_eq (hw : 32 ≤ w) (p : PubAckProperties) (h : p.len < 2 ^ w) :
    p.writeB m w = p.write := by
  unfold PubAckProperties.writeB PubAckProperties.write
  rw [(p.checked hw).1 h, liftOut_ok_bind, write_remaining_lengthB_eq hw]

theorem PubRecProperties.writeB_eq (hw : 32 ≤ w) (p : PubRecProperties) (h : p.len < 2 ^ w) :
    p.writeB m w = p.write := by
  unfold PubRecProperties.writeB PubRecProperties.write
  rw [(p.checked hw).1 h, liftOut_ok_bind, write_remaining_lengthB_eq hw]

theorem PubRelProperties.writeB_eq (hw : 32 ≤ w) (p : PubRelProperties) (h : p.len < 2 ^ w) :
    p.writeB m w = p.write := by
  unfold PubRelProperties.writeB PubRelProperties.write
  rw [(p.checked hw).1 h, liftOut_ok_bind, write_remaining_lengthB_eq hw]

theorem PubCompProperties.writeB_eq (hw : 32 ≤ w) (p : PubCompProperties) (h : p.len < 2 ^ w) :
    p.writeB m w = p.write := by
  unfold PubCompProperties.writeB PubCompProperties.write
  rw [(p.checked hw).1 h, liftOut_ok_bind, write_remaining_lengthB_eq hw]

theorem SubscribeProperties.writeB_eq (hw : 32 ≤ w) (p : SubscribeProperties) (h : p.len < 2 ^ w) :
    p.writeB m w = p.write := by
  unfold SubscribeProperties.writeB SubscribeProperties.write
  rw [(p.checked hw).1 h, liftOut_ok_bind]
  simp only [write_remaining_lengthB_eq hw]
  rfl

theorem SubAckProperties.writeB_eq (hw : 32 ≤ w) (p : SubAckProperties) (h : p.len < 2 ^ w) :
    p.writeB m w = p.write := by
  unfold SubAckProperties.writeB SubAckProperties.write
  rw [(p.checked hw).1 h, liftOut_ok_bind, write_remaining_lengthB_eq hw]

theorem UnsubscribeProperties.writeB_eq (hw : 32 ≤ w) (p : UnsubscribeProperties) (h : p.len < 2 ^ w) :
    p.writeB m w = p.write := by
  unfold UnsubscribeProperties.writeB UnsubscribeProperties.write
  rw [(p.checked hw).1 h, liftOut_ok_bind, write_remaining_lengthB_eq hw]

theorem UnsubAckProperties.writeB_eq (hw : 32 ≤ w) (p : UnsubAckProperties) (h : p.len < 2 ^ w) :
    p.writeB m w = p.write := by
  unfold UnsubAckProperties.writeB UnsubAckProperties.write
  rw [(p.checked hw).1 h, liftOut_ok_bind, write_remaining_lengthB_eq hw]

theorem DisconnectProperties.writeB_eq (hw : 32 ≤ w) (p : DisconnectProperties) (h : p.len < 2 ^ w) :
    p.writeB m w = p.write := by
  unfold DisconnectProperties.writeB DisconnectProperties.write
  rw [(p.checked hw).1 h, liftOut_ok_bind, write_remaining_lengthB_eq hw]

theorem LastWill.writeB_eq (hw : 32 ≤ w) (x : LastWill) (h : x.len < 2 ^ w) :
    x.writeB m w = x.write := by
  unfold LastWill.writeB LastWill.write
  unfold LastWill.len at h
  rw [writeOptPropsB_eq hw (LastWillProperties.writeB_eq hw) (by omega)]

theorem Connect.writeB_eq (hw : 32 ≤ w) (c : Connect) (will : Option LastWill) (l : Option Login)
    (h : c.len will l < 2 ^ w) : c.writeB m w will l = c.write will l := by
  have hp : optPropsLen ConnectProperties.len c.properties < 2 ^ w ∧
      ∀ x, will = some x → x.len < 2 ^ w := by
    unfold Connect.len at h
    refine ⟨?_, fun x hx => ?_⟩
    · omega
    · subst hx
      simp only at h
      omega
  unfold Connect.writeB Connect.write
  rw [(c.checked hw will l).1 h, liftOut_ok_bind, write_remaining_lengthB_eq hw]
  refine bind_congr fun _ => rem_bind_congr fun hn c hc => ?_
  simp only [total_eq hw hn hc, index_eq hw hc]
  rw [writeOptPropsB_eq hw (ConnectProperties.writeB_eq hw) hp.1]
  cases will with
  | none => rfl
  | some x =>
    simp only [LastWill.writeB_eq hw x (hp.2 x rfl)]
    rfl

theorem ConnAck.writeB_eq (hw : 32 ≤ w) (p : ConnAck) (h : p.len < 2 ^ w) :
    p.writeB m w = p.write := by
  unfold ConnAck.writeB ConnAck.write
  rw [(p.checked hw).1 h, liftOut_ok_bind]
  rw [write_remaining_lengthB_eq hw]
  refine bind_congr fun _ => rem_bind_congr fun hn c hc => ?_
  simp only [total_eq hw hn hc]
  rw [writeOptPropsB_eq hw (ConnAckProperties.writeB_eq hw) (by unfold ConnAck.len at h; omega)]

theorem Publish.writeB_eq (hw : 32 ≤ w) (p : Publish) (h : p.len < 2 ^ w) :
    p.writeB m w = p.write := by
  unfold Publish.writeB Publish.write
  rw [(p.checked hw).1 h, liftOut_ok_bind]
  rw [write_remaining_lengthB_eq hw]
  refine bind_congr fun _ => rem_bind_congr fun hn c hc => ?_
  simp only [total_eq hw hn hc]
  rw [writeOptPropsB_eq hw (PublishProperties.writeB_eq hw) (by unfold Publish.len at h; omega)]

theorem PubAck.writeB_eq (hw : 32 ≤ w) (p : PubAck) (h : p.len < 2 ^ w) :
    p.writeB m w = p.write := by
  unfold PubAck.writeB PubAck.write
  rw [(p.checked hw).1 h, liftOut_ok_bind]
  rw [write_remaining_lengthB_eq hw]
  refine bind_congr fun _ => rem_bind_congr fun hn c hc => ?_
  simp only [total_eq hw hn hc]
  by_cases he : p.reason = .Success ∧ p.properties = none
  · simp only [if_pos he]
  · unfold PubAck.len at h
    rw [if_neg he] at h
    rw [writeOptPropsB_eq hw (PubAckProperties.writeB_eq hw) (by omega)]

theorem PubRec.writeB_eq (hw : 32 ≤ w) (p : PubRec) (h : p.len < 2 ^ w) :
    p.writeB m w = p.write := by
  unfold PubRec.writeB PubRec.write
  rw [(p.checked hw).1 h, liftOut_ok_bind]
  rw [write_remaining_lengthB_eq hw]
  refine bind_congr fun _ => rem_bind_congr fun hn c hc => ?_
  simp only [total_eq hw hn hc]
  by_cases he : p.reason = .Success ∧ p.properties = none
  · simp only [if_pos he]
  · unfold PubRec.len at h
    rw [if_neg he] at h
    rw [writeOptPropsB_eq hw (PubRecProperties.writeB_eq hw) (by omega)]

theorem PubRel.writeB_eq (hw : 32 ≤ w) (p : PubRel) (h : p.len < 2 ^ w) :
    p.writeB m w = p.write := by
  unfold PubRel.writeB PubRel.write
  rw [(p.checked hw).1 h, liftOut_ok_bind]
  rw [write_remaining_lengthB_eq hw]
  refine bind_congr fun _ => rem_bind_congr fun hn c hc => ?_
  simp only [total_eq hw hn hc]
  by_cases he : p.reason = .Success ∧ p.properties = none
  · simp only [if_pos he]
  · unfold PubRel.len at h
    rw [if_neg he] at h
    rw [writeOptPropsB_eq hw (PubRelProperties.writeB_eq hw) (by omega)]

theorem PubComp.writeB_eq (hw : 32 ≤ w) (p : PubComp) (h : p.len < 2 ^ w) :
    p.writeB m w = p.write := by
  unfold PubComp.writeB PubComp.write
  rw [(p.checked hw).1 h, liftOut_ok_bind]
  rw [write_remaining_lengthB_eq hw]
  refine bind_congr fun _ => rem_bind_congr fun hn c hc => ?_
  simp only [total_eq hw hn hc]
  by_cases he : p.reason = .Success ∧ p.properties = none
  · simp only [if_pos he]
  · unfold PubComp.len at h
    rw [if_neg he] at h
    rw [writeOptPropsB_eq hw (PubCompProperties.writeB_eq hw) (by omega)]

theorem Subscribe.writeB_eq (hw : 32 ≤ w) (p : Subscribe) (h : p.len < 2 ^ w) :
    p.writeB m w = p.write := by
  unfold Subscribe.writeB Subscribe.write
  rw [(p.checked hw).1 h]
  simp only [liftOut_ok_bind]
  rw [write_remaining_lengthB_eq hw]
  refine bind_congr fun _ => rem_bind_congr fun hn c hc => ?_
  simp only [total_eq hw hn hc]
  rw [writeOptPropsB_eq hw (SubscribeProperties.writeB_eq hw) (by unfold Subscribe.len at h; omega)]

theorem SubAck.writeB_eq (hw : 32 ≤ w) (p : SubAck) (h : p.len < 2 ^ w) :
    p.writeB m w = p.write := by
  unfold SubAck.writeB SubAck.write
  rw [(p.checked hw).1 h]
  simp only [liftOut_ok_bind]
  rw [write_remaining_lengthB_eq hw]
  refine bind_congr fun _ => rem_bind_congr fun hn c hc => ?_
  simp only [total_eq hw hn hc]
  rw [writeOptPropsB_eq hw (SubAckProperties.writeB_eq hw) (by unfold SubAck.len at h; omega)]

theorem Unsubscribe.writeB_eq (hw : 32 ≤ w) (p : Unsubscribe) (h : p.len < 2 ^ w) :
    p.writeB m w = p.write := by
  unfold Unsubscribe.writeB Unsubscribe.write
  rw [(p.checked hw).1 h]
  simp only [liftOut_ok_bind]
  rw [write_remaining_lengthB_eq hw]
  refine bind_congr fun _ => rem_bind_congr fun hn c hc => ?_
  simp only [total_eq hw hn hc]
  rw [writeOptPropsB_eq hw (UnsubscribeProperties.writeB_eq hw) (by unfold Unsubscribe.len at h; omega)]

theorem UnsubAck.writeB_eq (hw : 32 ≤ w) (p : UnsubAck) (h : p.len < 2 ^ w) :
    p.writeB m w = p.write := by
  unfold UnsubAck.writeB UnsubAck.write
  rw [(p.checked hw).1 h]
  simp only [liftOut_ok_bind]
  rw [write_remaining_lengthB_eq hw]
  refine bind_congr fun _ => rem_bind_congr fun hn c hc => ?_
  simp only [total_eq hw hn hc]
  rw [writeOptPropsB_eq hw (UnsubAckProperties.writeB_eq hw) (by unfold UnsubAck.len at h; omega)]

theorem Disconnect.writeB_eq (hw : 32 ≤ w) (d : Disconnect) (h : d.len < 2 ^ w) :
    d.writeB m w = d.write := by
  unfold Disconnect.writeB Disconnect.write
  rw [(d.checked hw).1 h]
  simp only [liftOut_ok_bind]
  refine bind_congr fun _ => ?_
  by_cases h2 : d.len = 2
  · simp only [if_pos h2]
  · simp only [if_neg h2]
    rw [write_remaining_lengthB_eq hw]
    refine rem_bind_congr fun hn c hc => ?_
    simp only [total_eq hw hn hc]
    have hp : optPropsLen DisconnectProperties.len d.properties < 2 ^ w := by
      have := two_pow_gt hw
      obtain ⟨rc, o⟩ := d
      cases o with
      | none => simp only [optPropsLen]; omega
      | some q =>
        simp only [Disconnect.len, optPropsLen] at h ⊢
        simp at h
        omega
    rw [writeOptPropsB_eq hw (DisconnectProperties.writeB_eq hw) hp]

theorem Connect.writeB_panic (hw : 32 ≤ w) (p : Connect) (will : Option LastWill) (l : Option Login) (h : 2 ^ w ≤ p.len will l)
    (b : Bytes) : (p.writeB .debug w will l b).1 = .panic := by
  unfold Connect.writeB
  rw [(p.checked hw will l).2 h rfl]
  rfl

theorem ConnAck.writeB_panic (hw : 32 ≤ w) (p : ConnAck) (h : 2 ^ w ≤ p.len)
    (b : Bytes) : (p.writeB .debug w b).1 = .panic := by
  unfold ConnAck.writeB
  rw [(p.checked hw).2 h rfl]
  rfl

theorem Publish.writeB_panic (hw : 32 ≤ w) (p : Publish) (h : 2 ^ w ≤ p.len)
    (b : Bytes) : (p.writeB .debug w b).1 = .panic := by
  unfold Publish.writeB
  rw [(p.checked hw).2 h rfl]
  rfl

theorem PubAck.writeB_panic (hw : 32 ≤ w) (p : PubAck) (h : 2 ^ w ≤ p.len)
    (b : Bytes) : (p.writeB .debug w b).1 = .panic := by
  unfold PubAck.writeB
  rw [(p.checked hw).2 h rfl]
  rfl

theorem PubRec.writeB_panic (hw : 32 ≤ w) (p : PubRec) (h : 2 ^ w ≤ p.len)
    (b : Bytes) : (p.writeB .debug w b).1 = .panic := by
  unfold PubRec.writeB
  rw [(p.checked hw).2 h rfl]
  rfl

theorem PubRel.writeB_panic (hw : 32 ≤ w) (p : PubRel) (h : 2 ^ w ≤ p.len)
    (b : Bytes) : (p.writeB .debug w b).1 = .panic := by
  unfold PubRel.writeB
  rw [(p.checked hw).2 h rfl]
  rfl

theorem PubComp.writeB_panic (hw : 32 ≤ w) (p : PubComp) (h : 2 ^ w ≤ p.len)
    (b : Bytes) : (p.writeB .debug w b).1 = .panic := by
  unfold PubComp.writeB
  rw [(p.checked hw).2 h rfl]
  rfl

theorem Subscribe.writeB_panic (hw : 32 ≤ w) (p : Subscribe) (h : 2 ^ w ≤ p.len)
    (b : Bytes) : (p.writeB .debug w b).1 = .panic := by
  unfold Subscribe.writeB
  rw [(p.checked hw).2 h rfl]
  rfl

theorem SubAck.writeB_panic (hw : 32 ≤ w) (p : SubAck) (h : 2 ^ w ≤ p.len)
    (b : Bytes) : (p.writeB .debug w b).1 = .panic := by
  unfold SubAck.writeB
  rw [(p.checked hw).2 h rfl]
  rfl

theorem Unsubscribe.writeB_panic (hw : 32 ≤ w) (p : Unsubscribe) (h : 2 ^ w ≤ p.len)
    (b : Bytes) : (p.writeB .debug w b).1 = .panic := by
  unfold Unsubscribe.writeB
  rw [(p.checked hw).2 h rfl]
  rfl

theorem UnsubAck.writeB_panic (hw : 32 ≤ w) (p : UnsubAck) (h : 2 ^ w ≤ p.len)
    (b : Bytes) : (p.writeB .debug w b).1 = .panic := by
  unfold UnsubAck.writeB
  rw [(p.checked hw).2 h rfl]
  rfl

theorem Disconnect.writeB_panic (hw : 32 ≤ w) (p : Disconnect) (h : 2 ^ w ≤ p.len)
    (b : Bytes) : (p.writeB .debug w b).1 = .panic := by
  unfold Disconnect.writeB
  rw [(p.checked hw).2 h rfl]
  rfl

end Mqtt
