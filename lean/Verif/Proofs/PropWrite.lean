import Verif.Proofs.PropSets
import Verif.Spec.Packet
/-
Property writers: each is `write_remaining_length` followed by the generic `gWrite`.
-/
set_option linter.unusedSimpArgs false

namespace Mqtt

open Spec

/-- Writes the value of a property. -/
def writeVal : Property → M Unit
  | .payloadFormatIndicator v | .requestProblemInformation v | .requestResponseInformation v
  | .maximumQos v | .retainAvailable v | .wildcardSubscriptionAvailable v
  | .subscriptionIdentifierAvailable v | .sharedSubscriptionAvailable v => putU8 v
  | .serverKeepAlive v | .receiveMaximum v | .topicAliasMaximum v | .topicAlias v => putU16 v
  | .messageExpiryInterval v | .sessionExpiryInterval v | .willDelayInterval v
  | .maximumPacketSize v => putU32 v
  | .contentType v | .responseTopic v | .correlationData v | .assignedClientIdentifier v
  | .authenticationMethod v | .authenticationData v | .responseInformation v | .serverReference v
  | .reasonString v => write_mqtt_string v
  | .subscriptionIdentifier v => write_remaining_length v >>= fun _ => pure ()
  | .userProperty k v => write_mqtt_string k >>= fun _ => write_mqtt_string v

/-- Writes a list of properties. -/
def gWrite : List Property → M Unit
  | [] => pure ()
  | p :: ps => putU8 p.id >>= fun _ => writeVal p >>= fun _ => gWrite ps

/-- The length of a property as the library computes it. -/
def gCost : Property → Nat
  | .subscriptionIdentifier n => 1 + len_len n
  | p => p.enc.length

/-- The length of a property list as the library computes it. -/
def gLen : List Property → Nat
  | [] => 0
  | p :: ps => gCost p + gLen ps

theorem gWrite_append (l l' : List Property) :
    gWrite (l ++ l') = gWrite l >>= fun _ => gWrite l' := by
  induction l with
  | nil => rfl
  | cons p l ih => simp only [List.cons_append, gWrite, ih, bind_assoc]

theorem gLen_append (l l' : List Property) : gLen (l ++ l') = gLen l + gLen l' := by
  induction l with
  | nil => simp [gLen]
  | cons p l ih => simp only [List.cons_append, gLen, ih, Nat.add_assoc]

theorem encProps_append (l l' : List Property) :
    encProps (l ++ l') = encProps l ++ encProps l' := by simp [encProps]

theorem encProps_cons (p : Property) (l : List Property) :
    encProps (p :: l) = p.enc ++ encProps l := by simp [encProps]

/-- Number part of `Fits`. -/
def FitsNum : Property → Prop
  | .subscriptionIdentifier n => n ≤ maxVarint
  | _ => True

theorem fitsNum_of_fits {p : Property} (h : p.Fits) : FitsNum p := by
  cases p <;> simp_all [Property.Fits, FitsNum]

theorem gLen_eq {l : List Property} (h : ∀ p ∈ l, FitsNum p) : gLen l = (encProps l).length := by
  induction l with
  | nil => rfl
  | cons p l ih =>
    rw [gLen, encProps_cons, List.length_append, ih (fun q hq => h q (by simp [hq]))]
    congr 1
    have hp := h p (by simp)
    cases p <;> first | rfl | skip
    rename_i n
    show 1 + len_len n = (0x0B :: varint n).length
    rw [len_len_eq hp]; simp; omega

/-- What a failed property write says. -/
def PropErr (p : Property) (e : Err) : Prop :=
  (e = .BinaryDataTooLong ∧ ¬ p.Fits ∧ FitsNum p) ∨ (e = .PayloadTooLong ∧ ¬ FitsNum p)

theorem emits_unit_bind_pure {m : M Nat} {n : Nat} {w : Bytes} (h : Emits m (.ok n) w) :
    Emits (m >>= fun _ => (pure () : M Unit)) (.ok ()) w :=
  (Emits.bind h (Emits.pure ())).congr (by simp)

theorem writeVal_emits {p : Property} (h : p.Fits) : Emits (writeVal p) (.ok ()) p.value := by
  cases p <;> simp only [Property.Fits] at h <;> simp only [writeVal, Property.value] <;>
    first
    | exact emits_u8 _
    | exact emits_u16 _
    | exact emits_u32 _
    | exact emits_string h
    | exact Emits.bind (emits_string h.1) (emits_string h.2)
    | exact emits_unit_bind_pure (write_remaining_length_emits h)

theorem writeVal_err {p : Property} (h : ¬ p.Fits) :
    ∃ e w, PropErr p e ∧ Emits (writeVal p) (.err e) w := by
  cases p <;> simp only [Property.Fits, not_true_eq_false] at h <;>
    simp only [writeVal, PropErr, FitsNum, Property.Fits]
  case subscriptionIdentifier n =>
    exact ⟨_, _, .inr ⟨rfl, h⟩, Emits.bind_err (write_remaining_length_err (Nat.lt_of_not_le h))⟩
  case userProperty k v =>
    by_cases hk : k.length ≤ 65535
    · have hv : ¬ v.length ≤ 65535 := fun hv => h ⟨hk, hv⟩
      exact ⟨_, _, .inl ⟨rfl, h, trivial⟩, Emits.bind (emits_string hk)
        (emits_bytes_err (Nat.lt_of_not_le hv))⟩
    · exact ⟨_, _, .inl ⟨rfl, h, trivial⟩, Emits.bind_err
        (emits_bytes_err (Nat.lt_of_not_le hk))⟩
  all_goals
    exact ⟨_, _, .inl ⟨rfl, h, trivial⟩, emits_bytes_err (Nat.lt_of_not_le h)⟩

theorem gWrite_emits {l : List Property} (h : ∀ p ∈ l, p.Fits) :
    Emits (gWrite l) (.ok ()) (encProps l) := by
  induction l with
  | nil => exact Emits.pure ()
  | cons p l ih =>
    exact (Emits.bind (emits_u8 p.id) (Emits.bind (writeVal_emits (h p (by simp)))
      (ih fun q hq => h q (by simp [hq])))).congr (by simp [encProps_cons, Property.enc])

theorem gWrite_err {l : List Property} (h : ¬ ∀ p ∈ l, p.Fits) :
    ∃ p ∈ l, ∃ e w, PropErr p e ∧ Emits (gWrite l) (.err e) w := by
  induction l with
  | nil => simp at h
  | cons p l ih =>
    by_cases hp : p.Fits
    · have : ¬ ∀ q ∈ l, q.Fits := fun h' => h (by simp [hp]; exact h')
      obtain ⟨q, hq, e, w, he, hw⟩ := ih this
      exact ⟨q, by simp [hq], e, _, he,
        Emits.bind (emits_u8 p.id) (Emits.bind (writeVal_emits hp) hw)⟩
    · obtain ⟨e, w, he, hw⟩ := writeVal_err hp
      exact ⟨p, by simp, e, _, he, Emits.bind (emits_u8 p.id) (Emits.bind_err hw)⟩

/-! ### The model's pieces -/

theorem gWrite_single (p : Property) :
    gWrite [p] = putU8 p.id >>= fun _ => writeVal p := by
  simp only [gWrite]
  congr 1; funext _
  show (writeVal p >>= fun _ => pure PUnit.unit) = writeVal p
  exact bind_pure _

theorem writeOptU8_eq {ty : PropertyType} {mk : UInt8 → Property} (o : Option UInt8)
    (h : ∀ v, (mk v).id = ty.toU8 ∧ writeVal (mk v) = putU8 v) :
    writeOptU8 ty o = gWrite (one mk o) := by
  cases o with
  | none => rfl
  | some v => simp only [one, Option.toList_some, List.map, gWrite_single, h]; rfl

theorem writeOptU16_eq {ty : PropertyType} {mk : UInt16 → Property} (o : Option UInt16)
    (h : ∀ v, (mk v).id = ty.toU8 ∧ writeVal (mk v) = putU16 v) :
    writeOptU16 ty o = gWrite (one mk o) := by
  cases o with
  | none => rfl
  | some v => simp only [one, Option.toList_some, List.map, gWrite_single, h]; rfl

theorem writeOptU32_eq {ty : PropertyType} {mk : UInt32 → Property} (o : Option UInt32)
    (h : ∀ v, (mk v).id = ty.toU8 ∧ writeVal (mk v) = putU32 v) :
    writeOptU32 ty o = gWrite (one mk o) := by
  cases o with
  | none => rfl
  | some v => simp only [one, Option.toList_some, List.map, gWrite_single, h]; rfl

theorem writeOptStr_eq {ty : PropertyType} {mk : Bytes → Property} (o : Option Bytes)
    (h : ∀ v, (mk v).id = ty.toU8 ∧ writeVal (mk v) = write_mqtt_string v) :
    writeOptStr ty o = gWrite (one mk o) := by
  cases o with
  | none => rfl
  | some v => simp only [one, Option.toList_some, List.map, gWrite_single, h]; rfl

theorem writeUserProps_eq (l : List (Bytes × Bytes)) :
    writeUserProps l = gWrite (users l) := by
  induction l with
  | nil => rfl
  | cons kv l ih =>
    obtain ⟨k, v⟩ := kv
    rw [writeUserProps, ih]
    simp only [users, List.map_cons, gWrite, writeVal, bind_assoc]; rfl

theorem writeSubIds_eq (l : List Nat) :
    PublishProperties.writeSubIds l = gWrite (l.map .subscriptionIdentifier) := by
  induction l with
  | nil => rfl
  | cons n l ih =>
    rw [PublishProperties.writeSubIds, ih]
    simp only [List.map_cons, gWrite, writeVal, bind_assoc, pure_bind]; rfl

theorem optLen_eq {α : Type} {mk : α → Property} (o : Option α) (n : Nat)
    (h : ∀ v, gCost (mk v) = 1 + n) : optLen o n = gLen (one mk o) := by
  cases o with
  | none => rfl
  | some v => simp only [one, Option.toList_some, List.map, gLen, h]; simp [optLen]

theorem optStrLen_eq {mk : Bytes → Property} (o : Option Bytes)
    (h : ∀ v, gCost (mk v) = 1 + 2 + v.length) : optStrLen o = gLen (one mk o) := by
  cases o with
  | none => rfl
  | some v => simp only [one, Option.toList_some, List.map, gLen, h]; simp [optStrLen]

theorem foldl_add {α : Type} (f : α → Nat) (l : List α) (n : Nat) :
    l.foldl (fun acc a => acc + f a) n = n + (l.map f).sum := by
  induction l generalizing n with
  | nil => simp
  | cons a l ih => simp only [List.foldl_cons, ih, List.map_cons, List.sum_cons, Nat.add_assoc]

theorem userPropsLen_eq (l : List (Bytes × Bytes)) : userPropsLen l = gLen (users l) := by
  rw [userPropsLen, foldl_add, Nat.zero_add]
  induction l with
  | nil => rfl
  | cons kv l ih =>
    simp only [List.map_cons, List.sum_cons, ih, users, gLen, gCost, Property.enc, Property.value]
    simp; omega

theorem subIdsLen_eq (l : List Nat) :
    PublishProperties.subIdsLen l = gLen (l.map .subscriptionIdentifier) := by
  rw [PublishProperties.subIdsLen, foldl_add, Nat.zero_add]
  induction l with
  | nil => rfl
  | cons n l ih => simp only [List.map_cons, List.sum_cons, ih, gLen, gCost]

theorem ConnectProperties.len_eq (p : ConnectProperties) : p.len = gLen (Spec.ConnectProperties.toList p) := by
  unfold ConnectProperties.len Spec.ConnectProperties.toList
  rw [gLen_append, gLen_append, gLen_append, gLen_append, gLen_append, gLen_append, gLen_append, gLen_append, optLen_eq (mk := .sessionExpiryInterval) _ 4 (fun _ => rfl), optLen_eq (mk := .receiveMaximum) _ 2 (fun _ => rfl), optLen_eq (mk := .maximumPacketSize) _ 4 (fun _ => rfl), optLen_eq (mk := .topicAliasMaximum) _ 2 (fun _ => rfl), optLen_eq (mk := .requestResponseInformation) _ 1 (fun _ => rfl), optLen_eq (mk := .requestProblemInformation) _ 1 (fun _ => rfl), userPropsLen_eq, optStrLen_eq (mk := .authenticationMethod) _ (fun _ => by simp [gCost, Property.enc, Property.value]; omega), optStrLen_eq (mk := .authenticationData) _ (fun _ => by simp [gCost, Property.enc, Property.value]; omega)]

theorem ConnectProperties.write_eq (p : ConnectProperties) : p.write =
    write_remaining_length p.len >>= fun _ => gWrite (Spec.ConnectProperties.toList p) := by
  unfold ConnectProperties.write Spec.ConnectProperties.toList
  simp only [gWrite_append, bind_assoc]
  rw [writeOptU32_eq (mk := .sessionExpiryInterval) _ (fun _ => ⟨rfl, rfl⟩), writeOptU16_eq (mk := .receiveMaximum) _ (fun _ => ⟨rfl, rfl⟩), writeOptU32_eq (mk := .maximumPacketSize) _ (fun _ => ⟨rfl, rfl⟩), writeOptU16_eq (mk := .topicAliasMaximum) _ (fun _ => ⟨rfl, rfl⟩), writeOptU8_eq (mk := .requestResponseInformation) _ (fun _ => ⟨rfl, rfl⟩), writeOptU8_eq (mk := .requestProblemInformation) _ (fun _ => ⟨rfl, rfl⟩), writeUserProps_eq, writeOptStr_eq (mk := .authenticationMethod) _ (fun _ => ⟨rfl, rfl⟩), writeOptStr_eq (mk := .authenticationData) _ (fun _ => ⟨rfl, rfl⟩)]

theorem LastWillProperties.len_eq (p : LastWillProperties) : p.len = gLen (Spec.LastWillProperties.toList p) := by
  unfold LastWillProperties.len Spec.LastWillProperties.toList
  rw [gLen_append, gLen_append, gLen_append, gLen_append, gLen_append, gLen_append, optLen_eq (mk := .willDelayInterval) _ 4 (fun _ => rfl), optLen_eq (mk := .payloadFormatIndicator) _ 1 (fun _ => rfl), optLen_eq (mk := .messageExpiryInterval) _ 4 (fun _ => rfl), optStrLen_eq (mk := .contentType) _ (fun _ => by simp [gCost, Property.enc, Property.value]; omega), optStrLen_eq (mk := .responseTopic) _ (fun _ => by simp [gCost, Property.enc, Property.value]; omega), optStrLen_eq (mk := .correlationData) _ (fun _ => by simp [gCost, Property.enc, Property.value]; omega), userPropsLen_eq]

theorem LastWillProperties.write_eq (p : LastWillProperties) : p.write =
    write_remaining_length p.len >>= fun _ => gWrite (Spec.LastWillProperties.toList p) := by
  unfold LastWillProperties.write Spec.LastWillProperties.toList
  simp only [gWrite_append, bind_assoc]
  rw [writeOptU32_eq (mk := .willDelayInterval) _ (fun _ => ⟨rfl, rfl⟩), writeOptU8_eq (mk := .payloadFormatIndicator) _ (fun _ => ⟨rfl, rfl⟩), writeOptU32_eq (mk := .messageExpiryInterval) _ (fun _ => ⟨rfl, rfl⟩), writeOptStr_eq (mk := .contentType) _ (fun _ => ⟨rfl, rfl⟩), writeOptStr_eq (mk := .responseTopic) _ (fun _ => ⟨rfl, rfl⟩), writeOptStr_eq (mk := .correlationData) _ (fun _ => ⟨rfl, rfl⟩), writeUserProps_eq]

theorem ConnAckProperties.len_eq (p : ConnAckProperties) : p.len = gLen (Spec.ConnAckProperties.toList p) := by
  unfold ConnAckProperties.len Spec.ConnAckProperties.toList
  rw [gLen_append, gLen_append, gLen_append, gLen_append, gLen_append, gLen_append, gLen_append, gLen_append, gLen_append, gLen_append, gLen_append, gLen_append, gLen_append, gLen_append, gLen_append, gLen_append, optLen_eq (mk := .sessionExpiryInterval) _ 4 (fun _ => rfl), optLen_eq (mk := .receiveMaximum) _ 2 (fun _ => rfl), optLen_eq (mk := .maximumQos) _ 1 (fun _ => rfl), optLen_eq (mk := .retainAvailable) _ 1 (fun _ => rfl), optLen_eq (mk := .maximumPacketSize) _ 4 (fun _ => rfl), optStrLen_eq (mk := .assignedClientIdentifier) _ (fun _ => by simp [gCost, Property.enc, Property.value]; omega), optLen_eq (mk := .topicAliasMaximum) _ 2 (fun _ => rfl), optStrLen_eq (mk := .reasonString) _ (fun _ => by simp [gCost, Property.enc, Property.value]; omega), userPropsLen_eq, optLen_eq (mk := .wildcardSubscriptionAvailable) _ 1 (fun _ => rfl), optLen_eq (mk := .subscriptionIdentifierAvailable) _ 1 (fun _ => rfl), optLen_eq (mk := .sharedSubscriptionAvailable) _ 1 (fun _ => rfl), optLen_eq (mk := .serverKeepAlive) _ 2 (fun _ => rfl), optStrLen_eq (mk := .responseInformation) _ (fun _ => by simp [gCost, Property.enc, Property.value]; omega), optStrLen_eq (mk := .serverReference) _ (fun _ => by simp [gCost, Property.enc, Property.value]; omega), optStrLen_eq (mk := .authenticationMethod) _ (fun _ => by simp [gCost, Property.enc, Property.value]; omega), optStrLen_eq (mk := .authenticationData) _ (fun _ => by simp [gCost, Property.enc, Property.value]; omega)]

theorem ConnAckProperties.write_eq (p : ConnAckProperties) : p.write =
    write_remaining_length p.len >>= fun _ => gWrite (Spec.ConnAckProperties.toList p) := by
  unfold ConnAckProperties.write Spec.ConnAckProperties.toList
  simp only [gWrite_append, bind_assoc]
  rw [writeOptU32_eq (mk := .sessionExpiryInterval) _ (fun _ => ⟨rfl, rfl⟩), writeOptU16_eq (mk := .receiveMaximum) _ (fun _ => ⟨rfl, rfl⟩), writeOptU8_eq (mk := .maximumQos) _ (fun _ => ⟨rfl, rfl⟩), writeOptU8_eq (mk := .retainAvailable) _ (fun _ => ⟨rfl, rfl⟩), writeOptU32_eq (mk := .maximumPacketSize) _ (fun _ => ⟨rfl, rfl⟩), writeOptStr_eq (mk := .assignedClientIdentifier) _ (fun _ => ⟨rfl, rfl⟩), writeOptU16_eq (mk := .topicAliasMaximum) _ (fun _ => ⟨rfl, rfl⟩), writeOptStr_eq (mk := .reasonString) _ (fun _ => ⟨rfl, rfl⟩), writeUserProps_eq, writeOptU8_eq (mk := .wildcardSubscriptionAvailable) _ (fun _ => ⟨rfl, rfl⟩), writeOptU8_eq (mk := .subscriptionIdentifierAvailable) _ (fun _ => ⟨rfl, rfl⟩), writeOptU8_eq (mk := .sharedSubscriptionAvailable) _ (fun _ => ⟨rfl, rfl⟩), writeOptU16_eq (mk := .serverKeepAlive) _ (fun _ => ⟨rfl, rfl⟩), writeOptStr_eq (mk := .responseInformation) _ (fun _ => ⟨rfl, rfl⟩), writeOptStr_eq (mk := .serverReference) _ (fun _ => ⟨rfl, rfl⟩), writeOptStr_eq (mk := .authenticationMethod) _ (fun _ => ⟨rfl, rfl⟩), writeOptStr_eq (mk := .authenticationData) _ (fun _ => ⟨rfl, rfl⟩)]

theorem PublishProperties.len_eq (p : PublishProperties) : p.len = gLen (Spec.PublishProperties.toList p) := by
  unfold PublishProperties.len Spec.PublishProperties.toList
  rw [gLen_append, gLen_append, gLen_append, gLen_append, gLen_append, gLen_append, gLen_append, optLen_eq (mk := .payloadFormatIndicator) _ 1 (fun _ => rfl), optLen_eq (mk := .messageExpiryInterval) _ 4 (fun _ => rfl), optLen_eq (mk := .topicAlias) _ 2 (fun _ => rfl), optStrLen_eq (mk := .responseTopic) _ (fun _ => by simp [gCost, Property.enc, Property.value]; omega), optStrLen_eq (mk := .correlationData) _ (fun _ => by simp [gCost, Property.enc, Property.value]; omega), userPropsLen_eq, subIdsLen_eq, optStrLen_eq (mk := .contentType) _ (fun _ => by simp [gCost, Property.enc, Property.value]; omega)]

theorem PublishProperties.write_eq (p : PublishProperties) : p.write =
    write_remaining_length p.len >>= fun _ => gWrite (Spec.PublishProperties.toList p) := by
  unfold PublishProperties.write Spec.PublishProperties.toList
  simp only [gWrite_append, bind_assoc]
  rw [writeOptU8_eq (mk := .payloadFormatIndicator) _ (fun _ => ⟨rfl, rfl⟩), writeOptU32_eq (mk := .messageExpiryInterval) _ (fun _ => ⟨rfl, rfl⟩), writeOptU16_eq (mk := .topicAlias) _ (fun _ => ⟨rfl, rfl⟩), writeOptStr_eq (mk := .responseTopic) _ (fun _ => ⟨rfl, rfl⟩), writeOptStr_eq (mk := .correlationData) _ (fun _ => ⟨rfl, rfl⟩), writeUserProps_eq, writeSubIds_eq, writeOptStr_eq (mk := .contentType) _ (fun _ => ⟨rfl, rfl⟩)]

theorem PubAckProperties.len_eq (p : PubAckProperties) : p.len = gLen (Spec.PubAckProperties.toList p) := by
  unfold PubAckProperties.len Spec.PubAckProperties.toList
  rw [gLen_append, optStrLen_eq (mk := .reasonString) _ (fun _ => by simp [gCost, Property.enc, Property.value]; omega), userPropsLen_eq]

theorem PubAckProperties.write_eq (p : PubAckProperties) : p.write =
    write_remaining_length p.len >>= fun _ => gWrite (Spec.PubAckProperties.toList p) := by
  unfold PubAckProperties.write Spec.PubAckProperties.toList
  simp only [gWrite_append, bind_assoc]
  rw [writeOptStr_eq (mk := .reasonString) _ (fun _ => ⟨rfl, rfl⟩), writeUserProps_eq]

theorem PubRecProperties.len_eq (p : PubRecProperties) : p.len = gLen (Spec.PubRecProperties.toList p) := by
  unfold PubRecProperties.len Spec.PubRecProperties.toList
  rw [gLen_append, optStrLen_eq (mk := .reasonString) _ (fun _ => by simp [gCost, Property.enc, Property.value]; omega), userPropsLen_eq]

theorem PubRecProperties.write_eq (p : PubRecProperties) : p.write =
    write_remaining_length p.len >>= fun _ => gWrite (Spec.PubRecProperties.toList p) := by
  unfold PubRecProperties.write Spec.PubRecProperties.toList
  simp only [gWrite_append, bind_assoc]
  rw [writeOptStr_eq (mk := .reasonString) _ (fun _ => ⟨rfl, rfl⟩), writeUserProps_eq]

theorem PubRelProperties.len_eq (p : PubRelProperties) : p.len = gLen (Spec.PubRelProperties.toList p) := by
  unfold PubRelProperties.len Spec.PubRelProperties.toList
  rw [gLen_append, optStrLen_eq (mk := .reasonString) _ (fun _ => by simp [gCost, Property.enc, Property.value]; omega), userPropsLen_eq]

theorem PubRelProperties.write_eq (p : PubRelProperties) : p.write =
    write_remaining_length p.len >>= fun _ => gWrite (Spec.PubRelProperties.toList p) := by
  unfold PubRelProperties.write Spec.PubRelProperties.toList
  simp only [gWrite_append, bind_assoc]
  rw [writeOptStr_eq (mk := .reasonString) _ (fun _ => ⟨rfl, rfl⟩), writeUserProps_eq]

theorem PubCompProperties.len_eq (p : PubCompProperties) : p.len = gLen (Spec.PubCompProperties.toList p) := by
  unfold PubCompProperties.len Spec.PubCompProperties.toList
  rw [gLen_append, optStrLen_eq (mk := .reasonString) _ (fun _ => by simp [gCost, Property.enc, Property.value]; omega), userPropsLen_eq]

theorem PubCompProperties.write_eq (p : PubCompProperties) : p.write =
    write_remaining_length p.len >>= fun _ => gWrite (Spec.PubCompProperties.toList p) := by
  unfold PubCompProperties.write Spec.PubCompProperties.toList
  simp only [gWrite_append, bind_assoc]
  rw [writeOptStr_eq (mk := .reasonString) _ (fun _ => ⟨rfl, rfl⟩), writeUserProps_eq]

theorem SubscribeProperties.len_eq (p : SubscribeProperties) : p.len = gLen (Spec.SubscribeProperties.toList p) := by
  unfold SubscribeProperties.len Spec.SubscribeProperties.toList
  rw [gLen_append, userPropsLen_eq]
  cases p.id <;> rfl

theorem SubscribeProperties.write_eq (p : SubscribeProperties) : p.write =
    write_remaining_length p.len >>= fun _ => gWrite (Spec.SubscribeProperties.toList p) := by
  unfold SubscribeProperties.write Spec.SubscribeProperties.toList
  simp only [gWrite_append, writeUserProps_eq]
  cases p.id with
  | none => rfl
  | some n => simp only [one, Option.toList_some, List.map, gWrite_single, writeVal, bind_assoc,
      pure_bind]; rfl

theorem SubAckProperties.len_eq (p : SubAckProperties) : p.len = gLen (Spec.SubAckProperties.toList p) := by
  unfold SubAckProperties.len Spec.SubAckProperties.toList
  rw [gLen_append, optStrLen_eq (mk := .reasonString) _ (fun _ => by simp [gCost, Property.enc, Property.value]; omega), userPropsLen_eq]

theorem SubAckProperties.write_eq (p : SubAckProperties) : p.write =
    write_remaining_length p.len >>= fun _ => gWrite (Spec.SubAckProperties.toList p) := by
  unfold SubAckProperties.write Spec.SubAckProperties.toList
  simp only [gWrite_append, bind_assoc]
  rw [writeOptStr_eq (mk := .reasonString) _ (fun _ => ⟨rfl, rfl⟩), writeUserProps_eq]

theorem UnsubscribeProperties.len_eq (p : UnsubscribeProperties) : p.len = gLen (Spec.UnsubscribeProperties.toList p) := by
  unfold UnsubscribeProperties.len Spec.UnsubscribeProperties.toList
  rw [userPropsLen_eq]

theorem UnsubscribeProperties.write_eq (p : UnsubscribeProperties) : p.write =
    write_remaining_length p.len >>= fun _ => gWrite (Spec.UnsubscribeProperties.toList p) := by
  unfold UnsubscribeProperties.write Spec.UnsubscribeProperties.toList
  simp only [gWrite_append, bind_assoc]
  rw [writeUserProps_eq]

theorem UnsubAckProperties.len_eq (p : UnsubAckProperties) : p.len = gLen (Spec.UnsubAckProperties.toList p) := by
  unfold UnsubAckProperties.len Spec.UnsubAckProperties.toList
  rw [gLen_append, optStrLen_eq (mk := .reasonString) _ (fun _ => by simp [gCost, Property.enc, Property.value]; omega), userPropsLen_eq]

theorem UnsubAckProperties.write_eq (p : UnsubAckProperties) : p.write =
    write_remaining_length p.len >>= fun _ => gWrite (Spec.UnsubAckProperties.toList p) := by
  unfold UnsubAckProperties.write Spec.UnsubAckProperties.toList
  simp only [gWrite_append, bind_assoc]
  rw [writeOptStr_eq (mk := .reasonString) _ (fun _ => ⟨rfl, rfl⟩), writeUserProps_eq]

theorem DisconnectProperties.len_eq (p : DisconnectProperties) : p.len = gLen (Spec.DisconnectProperties.toList p) := by
  unfold DisconnectProperties.len Spec.DisconnectProperties.toList
  rw [gLen_append, gLen_append, gLen_append, optLen_eq (mk := .sessionExpiryInterval) _ 4 (fun _ => rfl), optStrLen_eq (mk := .reasonString) _ (fun _ => by simp [gCost, Property.enc, Property.value]; omega), userPropsLen_eq, optStrLen_eq (mk := .serverReference) _ (fun _ => by simp [gCost, Property.enc, Property.value]; omega)]

theorem DisconnectProperties.write_eq (p : DisconnectProperties) : p.write =
    write_remaining_length p.len >>= fun _ => gWrite (Spec.DisconnectProperties.toList p) := by
  unfold DisconnectProperties.write Spec.DisconnectProperties.toList
  simp only [gWrite_append, bind_assoc]
  rw [writeOptU32_eq (mk := .sessionExpiryInterval) _ (fun _ => ⟨rfl, rfl⟩), writeOptStr_eq (mk := .reasonString) _ (fun _ => ⟨rfl, rfl⟩), writeUserProps_eq, writeOptStr_eq (mk := .serverReference) _ (fun _ => ⟨rfl, rfl⟩)]

end Mqtt
