import Verif.Spec.UsizeEnc
/-
The encoder's arithmetic with `w` bits agrees with the unbounded one until the result does not fit.
-/
namespace Mqtt

open Spec (Checked)

variable {m : Build} {w : Nat}

theorem _root_.Spec.Checked.pure {a n : Nat} (ha : a < 2 ^ w) (h : a = n) : Checked m w (.ok a) n := by
  subst h; exact ⟨fun _ => rfl, fun h => absurd h (by omega)⟩

theorem _root_.Spec.Checked.of_eq {x : Out Nat} {a n : Nat} (h : Checked m w x a) (he : a = n) :
    Checked m w x n := he ▸ h

theorem _root_.Spec.Checked.bind {x : Out Nat} {f : Nat → Out Nat} {n k : Nat} (hx : Checked m w x n)
    (hf : n < 2 ^ w → Checked m w (f n) k) (hk : n ≤ k) : Checked m w (x >>= f) k := by
  constructor
  · intro h
    rw [hx.1 (by omega)]
    exact (hf (by omega)).1 h
  · intro h hm
    by_cases hn : n < 2 ^ w
    · rw [hx.1 hn]
      exact (hf hn).2 h hm
    · rw [hx.2 (by omega) hm]
      rfl

theorem checked_add (a b : Nat) : Checked m w (addB m w a b) (a + b) := by
  unfold addB
  constructor
  · intro h; rw [if_pos h]
  · intro h hm; rw [if_neg (by omega), hm]

theorem checked_sum {a : Nat} (ha : a < 2 ^ w) (bs : List Nat) :
    Checked m w (sumB m w a bs) (a + bs.sum) := by
  induction bs generalizing a with
  | nil => exact .pure ha (by simp)
  | cons b bs ih =>
    exact .bind (checked_add a b) (fun h => (ih h).of_eq (by simp; omega)) (by simp)

theorem checked_inc {a : Nat} (len : Nat) (ha : a < 2 ^ w) (bs : List Nat) :
    Checked m w (incB m w len a bs) (len + (a + bs.sum)) :=
  .bind (checked_sum ha bs) (fun _ => checked_add _ _) (by omega)

theorem two_pow_gt (hw : 32 ≤ w) : 4294967296 ≤ 2 ^ w :=
  Nat.pow_le_pow_right (n := 2) (by omega) hw

theorem checked_opt {α : Type} (hw : 32 ≤ w) (o : Option α) (n : Nat) {len : Nat}
    (h : len < 2 ^ w) : Checked m w (optLenB m w o n len) (len + optLen o n) := by
  have := two_pow_gt hw
  unfold optLenB optLen
  split
  · exact (checked_inc len (by omega) _).of_eq (by simp)
  · exact .pure h rfl

theorem checked_optStr (hw : 32 ≤ w) (o : Option Bytes) {len : Nat} (h : len < 2 ^ w) :
    Checked m w (optStrLenB m w o len) (len + optStrLen o) := by
  have := two_pow_gt hw
  unfold optStrLenB optStrLen
  split
  · exact (checked_inc len (by omega) _).of_eq (by simp; omega)
  · exact .pure h rfl

theorem foldl_addB {α : Type} (f : α → Nat) (l : List α) (a : Nat) :
    l.foldl (fun s x => s + f x) a = a + l.foldl (fun s x => s + f x) 0 := by
  induction l generalizing a with
  | nil => rfl
  | cons x l ih => rw [List.foldl_cons, ih, List.foldl_cons, ih (0 + f x)]; omega

theorem checked_user (hw : 32 ≤ w) (ups : List (MqttString × MqttString)) {len : Nat}
    (h : len < 2 ^ w) : Checked m w (userPropsLenB m w ups len) (len + userPropsLen ups) := by
  have := two_pow_gt hw
  induction ups generalizing len with
  | nil => exact .pure h rfl
  | cons kv ups ih =>
    have e : userPropsLen (kv :: ups) =
        1 + 2 + kv.1.length + 2 + kv.2.length + userPropsLen ups := by
      unfold userPropsLen; rw [List.foldl_cons, foldl_addB]; omega
    rw [e]
    refine .bind (checked_inc len (by omega) _) (fun h => (ih h).of_eq ?_) ?_ <;> simp <;> omega

theorem checked_subIds (hw : 32 ≤ w) (ids : List Nat) {len : Nat} (h : len < 2 ^ w) :
    Checked m w (subIdsLenB m w ids len) (len + PublishProperties.subIdsLen ids) := by
  have := two_pow_gt hw
  induction ids generalizing len with
  | nil => exact .pure h rfl
  | cons id ids ih =>
    have e : PublishProperties.subIdsLen (id :: ids) =
        1 + len_len id + PublishProperties.subIdsLen ids := by
      unfold PublishProperties.subIdsLen; rw [List.foldl_cons, foldl_addB]; omega
    rw [e]
    refine .bind (checked_inc len (by omega) _) (fun h => (ih h).of_eq ?_) ?_ <;> simp <;> omega

theorem len_len_le (n : Nat) : 1 ≤ len_len n ∧ len_len n ≤ 4 := by
  unfold len_len; repeat' split
  all_goals omega

theorem checked_optProps {σ : Type} (hw : 32 ≤ w) {plenB : σ → Out Nat} {plen : σ → Nat}
    (hp : ∀ p, Checked m w (plenB p) (plen p)) (o : Option σ) (len : Nat) :
    Checked m w (optPropsLenB m w plenB o len) (len + optPropsLen plen o) := by
  have := two_pow_gt hw
  cases o with
  | some p =>
    show Checked m w _ (len + (len_len (plen p) + plen p))
    have := len_len_le (plen p)
    refine .bind (hp p) (fun _ => (checked_inc len (by omega) _).of_eq (by simp)) (by omega)
  | none => exact checked_add _ _

/-- One statement of a function `len`. -/
macro "lstep" t:term : tactic =>
  `(tactic| refine Checked.bind ($t (by assumption)) (fun _ => ?_) (by omega))

macro "lend" : tactic => `(tactic| exact Checked.pure (by assumption) (by omega))

theorem ConnectProperties.checked (hw : 32 ≤ w) (p : ConnectProperties) :
    Checked m w (p.lenB m w) p.len := by
  have h0 : 0 < 2 ^ w := by have := two_pow_gt hw; omega
  unfold ConnectProperties.lenB ConnectProperties.len
  lstep (checked_opt hw p.session_expiry_interval 4)
  lstep (checked_opt hw p.receive_maximum 2)
  lstep (checked_opt hw p.max_packet_size 4)
  lstep (checked_opt hw p.topic_alias_max 2)
  lstep (checked_opt hw p.request_response_info 1)
  lstep (checked_opt hw p.request_problem_info 1)
  lstep (checked_user hw p.user_properties)
  lstep (checked_optStr hw p.authentication_method)
  lstep (checked_optStr hw p.authentication_data)
  lend

theorem LastWillProperties.checked (hw : 32 ≤ w) (p : LastWillProperties) :
    Checked m w (p.lenB m w) p.len := by
  have h0 : 0 < 2 ^ w := by have := two_pow_gt hw; omega
  unfold LastWillProperties.lenB LastWillProperties.len
  lstep (checked_opt hw p.delay_interval 4)
  lstep (checked_opt hw p.payload_format_indicator 1)
  lstep (checked_opt hw p.message_expiry_interval 4)
  lstep (checked_optStr hw p.content_type)
  lstep (checked_optStr hw p.response_topic)
  lstep (checked_optStr hw p.correlation_data)
  lstep (checked_user hw p.user_properties)
  lend

theorem ConnAckProperties.checked (hw : 32 ≤ w) (p : ConnAckProperties) :
    Checked m w (p.lenB m w) p.len := by
  have h0 : 0 < 2 ^ w := by have := two_pow_gt hw; omega
  unfold ConnAckProperties.lenB ConnAckProperties.len
  lstep (checked_opt hw p.session_expiry_interval 4)
  lstep (checked_opt hw p.receive_max 2)
  lstep (checked_opt hw p.max_qos 1)
  lstep (checked_opt hw p.retain_available 1)
  lstep (checked_opt hw p.max_packet_size 4)
  lstep (checked_optStr hw p.assigned_client_identifier)
  lstep (checked_opt hw p.topic_alias_max 2)
  lstep (checked_optStr hw p.reason_string)
  lstep (checked_user hw p.user_properties)
  lstep (checked_opt hw p.wildcard_subscription_available 1)
  lstep (checked_opt hw p.subscription_identifiers_available 1)
  lstep (checked_opt hw p.shared_subscription_available 1)
  lstep (checked_opt hw p.server_keep_alive 2)
  lstep (checked_optStr hw p.response_information)
  lstep (checked_optStr hw p.server_reference)
  lstep (checked_optStr hw p.authentication_method)
  lstep (checked_optStr hw p.authentication_data)
  lend

theorem PublishProperties.checked (hw : 32 ≤ w) (p : PublishProperties) :
    Checked m w (p.lenB m w) p.len := by
  have h0 : 0 < 2 ^ w := by have := two_pow_gt hw; omega
  unfold PublishProperties.lenB PublishProperties.len
  lstep (checked_opt hw p.payload_format_indicator 1)
  lstep (checked_opt hw p.message_expiry_interval 4)
  lstep (checked_opt hw p.topic_alias 2)
  lstep (checked_optStr hw p.response_topic)
  lstep (checked_optStr hw p.correlation_data)
  lstep (checked_user hw p.user_properties)
  lstep (checked_subIds hw p.subscription_identifiers)
  lstep (checked_optStr hw p.content_type)
  lend

theorem PubAckProperties.checked (hw : 32 ≤ w) (p : PubAckProperties) :
    Checked m w (p.lenB m w) p.len := by
  have h0 : 0 < 2 ^ w := by have := two_pow_gt hw; omega
  unfold PubAckProperties.lenB PubAckProperties.len
  lstep (checked_optStr hw p.reason_string)
  lstep (checked_user hw p.user_properties)
  lend

theorem PubRecProperties.checked (hw : 32 ≤ w) (p : PubRecProperties) :
    Checked m w (p.lenB m w) p.len := by
  have h0 : 0 < 2 ^ w := by have := two_pow_gt hw; omega
  unfold PubRecProperties.lenB PubRecProperties.len
  lstep (checked_optStr hw p.reason_string)
  lstep (checked_user hw p.user_properties)
  lend

theorem PubRelProperties.checked (hw : 32 ≤ w) (p : PubRelProperties) :
    Checked m w (p.lenB m w) p.len := by
  have h0 : 0 < 2 ^ w := by have := two_pow_gt hw; omega
  unfold PubRelProperties.lenB PubRelProperties.len
  lstep (checked_optStr hw p.reason_string)
  lstep (checked_user hw p.user_properties)
  lend

theorem PubCompProperties.checked (hw : 32 ≤ w) (p : PubCompProperties) :
    Checked m w (p.lenB m w) p.len := by
  have h0 : 0 < 2 ^ w := by have := two_pow_gt hw; omega
  unfold PubCompProperties.lenB PubCompProperties.len
  lstep (checked_optStr hw p.reason_string)
  lstep (checked_user hw p.user_properties)
  lend

theorem SubscribeProperties.checked (hw : 32 ≤ w) (p : SubscribeProperties) :
    Checked m w (p.lenB m w) p.len := by
  have h0 : 0 < 2 ^ w := by have := two_pow_gt hw; omega
  have := two_pow_gt hw
  obtain ⟨id, ups⟩ := p
  unfold SubscribeProperties.lenB SubscribeProperties.len
  cases id with
  | none => exact .bind (.pure (n := 0) h0 rfl) (fun _ => .bind (checked_user hw ups (by assumption))
      (fun _ => .pure (by assumption) (by simp)) (by simp)) (by omega)
  | some id =>
    refine .bind (checked_inc 0 (by omega) _) (fun _ => ?_) (by simp)
    exact .bind (checked_user hw ups (by assumption)) (fun _ => .pure (by assumption) (by simp))
      (by simp)

theorem SubAckProperties.checked (hw : 32 ≤ w) (p : SubAckProperties) :
    Checked m w (p.lenB m w) p.len := by
  have h0 : 0 < 2 ^ w := by have := two_pow_gt hw; omega
  unfold SubAckProperties.lenB SubAckProperties.len
  lstep (checked_optStr hw p.reason_string)
  lstep (checked_user hw p.user_properties)
  lend

theorem UnsubscribeProperties.checked (hw : 32 ≤ w) (p : UnsubscribeProperties) :
    Checked m w (p.lenB m w) p.len := by
  have h0 : 0 < 2 ^ w := by have := two_pow_gt hw; omega
  unfold UnsubscribeProperties.lenB UnsubscribeProperties.len
  lstep (checked_user hw p.user_properties)
  lend

theorem UnsubAckProperties.checked (hw : 32 ≤ w) (p : UnsubAckProperties) :
    Checked m w (p.lenB m w) p.len := by
  have h0 : 0 < 2 ^ w := by have := two_pow_gt hw; omega
  unfold UnsubAckProperties.lenB UnsubAckProperties.len
  lstep (checked_optStr hw p.reason_string)
  lstep (checked_user hw p.user_properties)
  lend

theorem DisconnectProperties.checked (hw : 32 ≤ w) (p : DisconnectProperties) :
    Checked m w (p.lenB m w) p.len := by
  have h0 : 0 < 2 ^ w := by have := two_pow_gt hw; omega
  unfold DisconnectProperties.lenB DisconnectProperties.len
  lstep (checked_opt hw p.session_expiry_interval 4)
  lstep (checked_optStr hw p.reason_string)
  lstep (checked_user hw p.user_properties)
  lstep (checked_optStr hw p.server_reference)
  lend

theorem checked_size (hw : 32 ≤ w) {x : Out Nat} {n : Nat} (h : Checked m w x n) :
    Checked m w (x >>= sizeB m w) (1 + len_len n + n) := by
  have := two_pow_gt hw
  exact .bind h (fun _ => (checked_sum (by omega) _).of_eq (by simp; omega)) (by omega)

theorem LastWill.checked (hw : 32 ≤ w) (l : LastWill) : Checked m w (l.lenB m w) l.len := by
  have := two_pow_gt hw
  unfold LastWill.lenB LastWill.len
  exact .bind (checked_optProps hw (LastWillProperties.checked hw) _ 0)
    (fun _ => (checked_inc _ (by omega) _).of_eq (by simp; omega)) (by omega)

theorem Login.checked (hw : 32 ≤ w) (l : Login) : Checked m w (l.lenB m w) l.len := by
  have := two_pow_gt hw
  unfold Login.lenB Login.len
  refine .bind (n := if l.username.isEmpty then 0 else 2 + l.username.length) ?_ (fun _ => ?_)
    (by omega)
  · split
    · exact .pure (by omega) rfl
    · exact (checked_inc 0 (by omega) _).of_eq (by simp)
  · split
    · exact .pure (by assumption) (by omega)
    · exact (checked_inc _ (by omega) _).of_eq (by simp)

theorem Connect.checked (hw : 32 ≤ w) (c : Connect) (will : Option LastWill) (l : Option Login) :
    Checked m w (c.lenB m w will l) (c.len will l) := by
  have := two_pow_gt hw
  unfold Connect.lenB Connect.len
  refine .bind (checked_sum (by omega) _) (fun _ => ?_) (by simp; omega)
  refine .bind (checked_optProps hw (ConnectProperties.checked hw) _ _) (fun _ => ?_)
    (by simp; omega)
  refine .bind (checked_inc _ (by omega) _) (fun _ => ?_) (by simp; omega)
  refine .bind (n := 2 + protocolName.length + 1 + 1 + 2
    + optPropsLen ConnectProperties.len c.properties + (2 + c.client_id.length)
    + will.elim 0 LastWill.len) ?_ (fun _ => ?_) ?_
  · cases will with
    | none => exact .pure (by assumption) (by simp; omega)
    | some x =>
      refine .bind (x.checked hw) (fun _ => (checked_add _ _).of_eq ?_) ?_ <;> simp <;> omega
  · cases l with
    | none => cases will <;> exact .pure (by assumption) (by simp)
    | some x =>
      refine .bind (x.checked hw) (fun _ => (checked_add _ _).of_eq ?_) (by simp)
      cases will <;> simp
  · cases will <;> simp <;> omega

theorem ConnAck.checked (hw : 32 ≤ w) (p : ConnAck) : Checked m w (p.lenB m w) p.len := by
  have := two_pow_gt hw
  unfold ConnAck.lenB ConnAck.len
  exact .bind (checked_sum (by omega) _)
    (fun _ => (checked_optProps hw (ConnAckProperties.checked hw) _ _).of_eq (by simp)) (by simp)

theorem Publish.checked (hw : 32 ≤ w) (p : Publish) : Checked m w (p.lenB m w) p.len := by
  have := two_pow_gt hw
  unfold Publish.lenB Publish.len
  refine .bind (checked_sum (by omega) _) (fun _ => ?_) (by simp; omega)
  refine .bind (n := 2 + p.topic.length + if p.qos ≠ .AtMostOnce ∧ p.pkid ≠ 0 then 2 else 0) ?_
    (fun _ => ?_) (by omega)
  · split
    · exact (checked_add _ _).of_eq (by simp)
    · exact .pure (by assumption) (by simp)
  · exact .bind (checked_optProps hw (PublishProperties.checked hw) _ _)
      (fun _ => checked_add _ _) (by omega)

theorem PubAck.checked (hw : 32 ≤ w) (p : PubAck) : Checked m w (p.lenB m w) p.len := by
  have := two_pow_gt hw
  unfold PubAck.lenB PubAck.len
  rw [(checked_sum (m := m) (a := 2) (by omega) [1]).1 (by simp; omega)]
  show Checked m w (if _ then _ else _) _
  split
  · exact .pure (by omega) rfl
  · exact checked_optProps hw (PubAckProperties.checked hw) _ _

theorem PubRec.checked (hw : 32 ≤ w) (p : PubRec) : Checked m w (p.lenB m w) p.len := by
  have := two_pow_gt hw
  unfold PubRec.lenB PubRec.len
  rw [(checked_sum (m := m) (a := 2) (by omega) [1]).1 (by simp; omega)]
  show Checked m w (if _ then _ else _) _
  split
  · exact .pure (by omega) rfl
  · exact checked_optProps hw (PubRecProperties.checked hw) _ _

theorem PubRel.checked (hw : 32 ≤ w) (p : PubRel) : Checked m w (p.lenB m w) p.len := by
  have := two_pow_gt hw
  unfold PubRel.lenB PubRel.len
  rw [(checked_sum (m := m) (a := 2) (by omega) [1]).1 (by simp; omega)]
  show Checked m w (if _ then _ else _) _
  split
  · exact .pure (by omega) rfl
  · exact checked_optProps hw (PubRelProperties.checked hw) _ _

theorem PubComp.checked (hw : 32 ≤ w) (p : PubComp) : Checked m w (p.lenB m w) p.len := by
  have := two_pow_gt hw
  unfold PubComp.lenB PubComp.len
  rw [(checked_sum (m := m) (a := 2) (by omega) [1]).1 (by simp; omega)]
  show Checked m w (if _ then _ else _) _
  split
  · exact .pure (by omega) rfl
  · exact checked_optProps hw (PubCompProperties.checked hw) _ _

theorem checked_filters (hw : 32 ≤ w) (l : List Filter) {s : Nat} (h : s < 2 ^ w) :
    Checked m w (filtersLenB m w l s) (s + l.foldl (fun acc t => acc + t.len) 0) := by
  have := two_pow_gt hw
  induction l generalizing s with
  | nil => exact .pure h rfl
  | cons t l ih =>
    rw [List.foldl_cons, foldl_addB Filter.len]
    have e : Checked m w (t.lenB m w) t.len :=
      (checked_sum (by omega) _).of_eq (by simp [Filter.len]; omega)
    exact .bind e (fun _ => .bind (checked_add _ _) (fun h => (ih h).of_eq (by omega)) (by omega))
      (by omega)

theorem checked_topics (hw : 32 ≤ w) (l : List MqttString) {s : Nat} (h : s < 2 ^ w) :
    Checked m w (topicsLenB m w l s) (l.foldl (fun s t => 2 + s + t.length) s) := by
  have := two_pow_gt hw
  have mono : ∀ (l : List MqttString) (s : Nat), s ≤ l.foldl (fun s t => 2 + s + t.length) s := by
    intro l
    induction l with
    | nil => intro s; exact Nat.le_refl s
    | cons t l ih => intro s; exact Nat.le_trans (show s ≤ 2 + s + t.length by omega) (ih _)
  induction l generalizing s with
  | nil => exact .pure h rfl
  | cons t l ih =>
    rw [List.foldl_cons]
    have e := mono l (2 + s + t.length)
    refine .bind (checked_sum (by omega) _) (fun h => (ih h).of_eq ?_) ?_
    · simp [Nat.add_assoc]
    · simp; omega

theorem Subscribe.checked (hw : 32 ≤ w) (p : Subscribe) : Checked m w (p.lenB m w) p.len := by
  have := two_pow_gt hw
  unfold Subscribe.lenB Subscribe.len
  exact .bind (checked_filters hw _ (by omega)) (fun _ => .bind (checked_add _ _)
    (fun _ => (checked_optProps hw (SubscribeProperties.checked hw) _ _).of_eq (by omega)) (by omega))
    (by omega)

theorem SubAck.checked (hw : 32 ≤ w) (p : SubAck) : Checked m w (p.lenB m w) p.len := by
  have := two_pow_gt hw
  unfold SubAck.lenB SubAck.len
  exact .bind (checked_sum (by omega) _)
    (fun _ => (checked_optProps hw (SubAckProperties.checked hw) _ _).of_eq (by simp)) (by simp)

theorem Unsubscribe.checked (hw : 32 ≤ w) (p : Unsubscribe) : Checked m w (p.lenB m w) p.len := by
  have := two_pow_gt hw
  unfold Unsubscribe.lenB Unsubscribe.len
  exact .bind (checked_topics hw _ (by omega)) (fun _ => .bind (checked_add _ _)
    (fun _ => (checked_optProps hw (UnsubscribeProperties.checked hw) _ _).of_eq (by omega))
    (by omega)) (by omega)

theorem UnsubAck.checked (hw : 32 ≤ w) (p : UnsubAck) : Checked m w (p.lenB m w) p.len := by
  have := two_pow_gt hw
  unfold UnsubAck.lenB UnsubAck.len
  exact .bind (checked_sum (by omega) _)
    (fun _ => (checked_optProps hw (UnsubAckProperties.checked hw) _ _).of_eq (by simp)) (by simp)

theorem Disconnect.checked (hw : 32 ≤ w) (p : Disconnect) : Checked m w (p.lenB m w) p.len := by
  have := two_pow_gt hw
  unfold Disconnect.lenB Disconnect.len
  split
  · exact .pure (by omega) rfl
  · obtain ⟨rc, o⟩ := p
    cases o with
    | none => exact (checked_add 0 1).of_eq (by simp)
    | some q =>
      have hl := len_len_le q.len
      exact .bind (checked_add 0 1) (fun _ => .bind (q.checked hw)
        (fun _ => (checked_inc _ (by omega) _).of_eq (by simp)) (by simp; omega)) (by simp)

end Mqtt
