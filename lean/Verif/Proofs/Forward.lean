import Verif.Proofs.Decoded
import Verif.Spec.Mqtt5
import Verif.Spec.Forward
/-
The size of a conforming frame and of the encoding of its packet.
-/
namespace Mqtt

open Spec

theorem varint_length_mono {m n : Nat} (h : m ≤ n) : (varint m).length ≤ (varint n).length := by
  have key : ∀ k, ∀ m n, m ≤ n → n < 128 ^ k → (varint m).length ≤ (varint n).length := by
    intro k
    induction k with
    | zero => intro m n h1 h2; have : n = 0 := by simpa using h2
              have : m = n := by omega
              rw [this]; exact Nat.le_refl _
    | succ k ih =>
      intro m n h1 h2
      by_cases hm : m < 128
      · have := varint_length_pos n
        have e : varint m = [UInt8.ofNat m] := by rw [varint, if_pos hm]
        rw [e]
        exact this
      · have e1 : (varint m).length = (varint (m / 128)).length + 1 := by
          rw [varint, if_neg hm, List.length_cons]
        have e2 : (varint n).length = (varint (n / 128)).length + 1 := by
          rw [varint, if_neg (by omega), List.length_cons]
        have : n / 128 < 128 ^ k := by
          rw [Nat.pow_succ] at h2
          exact Nat.div_lt_of_lt_mul (by omega)
        have := ih (m / 128) (n / 128) (Nat.div_le_div_right h1) this
        omega
  exact key n m n h (Nat.lt_pow_self (by omega))

theorem propSection_mono {l l' : List Property} (h : (encProps l).length ≤ (encProps l').length) :
    (propSection l).length ≤ (propSection l').length := by
  have := varint_length_mono h
  simp only [propSection, List.length_append]
  omega

theorem sec_le {α : Type} {toList : α → List Property} {ofList : List Property → α}
    (hw : ∀ l, Within (toList (ofList l)) l) {ids many : List UInt8} {ps : List Property} {s : Bytes}
    (h : Section5 ids many ps s) : (optSection toList (propsOf ofList ps)).length ≤ s.length := by
  rw [h.bytes]
  unfold propsOf
  split
  · rename_i e; subst e; exact Nat.le_refl _
  · refine propSection_mono ?_
    have := hw ps (fun q => q.enc.length)
    rwa [wsum_enc, wsum_enc] at this

theorem tail_le {α : Type} {toList : α → List Property} (code : UInt8) {o : Option α} {s : Bytes}
    (h : (optSection toList o).length ≤ s.length) :
    (ackTail code toList o).length ≤ 1 + s.length := by
  cases o with
  | none =>
    simp only [ackTail, optSection] at *
    split
    · simp
    · rw [List.length_cons]; omega
  | some q => simp only [ackTail, optSection, List.length_cons] at *; omega

theorem login_le (flags : UInt8) (user pass : Bytes) :
    (connectLogin flags user pass).elim 0 (fun l => (loginBytes l).length) ≤
      (if bitAt flags 7 then str user else []).length
        + (if bitAt flags 6 then str pass else []).length := by
  have hs : ∀ (c : Bool) (s : Bytes),
      (optStr (if c then s else [])).length ≤ (if c then str s else []).length := by
    intro c s
    cases c with
    | false => simp [optStr]
    | true => simp only [if_true, optStr]; split <;> simp
  have h1 := hs (bitAt flags 7) user
  have h2 := hs (bitAt flags 6) pass
  unfold connectLogin
  simp only
  generalize (if bitAt flags 7 = true then user else []) = u at *
  generalize (if bitAt flags 6 = true then pass else []) = q at *
  split
  · simp
  · simp only [Option.elim, loginBytes, List.length_append]; omega

theorem filters_len {items : List (Bytes × UInt8)} {fs : List Filter} (h : FiltersAre items fs) :
    (fs.flatMap filterBytes).length = (filterItems items).length := by
  induction h with
  | nil => rfl
  | cons h1 _ _ ih =>
    subst h1
    simp only [filterItems, filterBytes, List.flatMap_cons, List.length_append, List.length_cons,
      List.length_nil] at *
    omega

/-- The body of the encoding is at most as long as the body of a conforming frame, unless this is
a short acknowledgement. -/
theorem forward_body {flags : Nat} {bd : Bytes} {p : Packet} {ps : List Property}
    (h : Body5 flags bd p ps) (hd : ∀ d, p = .Disconnect d → bd.length ≠ 1) :
    (body p).length ≤ bd.length ∨
    (∃ k code, bd = u16 k ++ [code] ∧ code ≠ 0 ∧ typeNum p ∈ [4, 5, 6, 7] ∧ (body p).length = 4) := by
  have hack : ∀ {α : Type} (toList : α → List Property) (k : UInt16) (code : UInt8),
      (u16 k ++ ackTail code toList none).length ≤ (u16 k ++ [code]).length ∨
      code ≠ 0 ∧ (u16 k ++ ackTail code toList none).length = 4 := by
    intro α toList k code
    by_cases hc : code = 0
    · left; simp [ackTail, hc]
    · right
      refine ⟨hc, ?_⟩
      simp [ackTail, hc, propSection_nil_len]
  cases h with
  | connect h1 h2 h3 ha h4 h5 =>
    left
    rename_i fl ka s cid user pass
    have e1 := sec_le ConnectProperties.within h3
    have e2 := login_le fl user pass
    generalize connectLogin fl user pass = L at *
    simp only [body, connectBody, List.length_append, List.length_cons, List.length_nil] at *
    have : (str [0x4D, 0x51, 0x54, 0x54]).length = 6 := rfl
    cases L <;> simp only [Option.elim, List.length_nil] at * <;> omega
  | connectWill h1 h2 h3 h4 ha h5 h6 h7 h8 h9 h10 =>
    left
    rename_i fl ka wps q s cid ws topic message user pass
    have e1 := sec_le ConnectProperties.within h4
    have e2 := login_le fl user pass
    generalize connectLogin fl user pass = L at *
    have e3 := sec_le LastWillProperties.within h6
    have hb : bitAt fl 2 = true := by simpa [bitAt] using h2
    simp only [body, connectBody, willBytes, List.length_append, List.length_cons, List.length_nil,
      hb, if_true] at *
    have : (str [0x4D, 0x51, 0x54, 0x54]).length = 6 := rfl
    cases L <;> simp only [Option.elim, List.length_nil] at * <;> omega
  | connAck h1 _ h2 =>
    left
    have e1 := sec_le ConnAckProperties.within h2
    simp only [body, List.length_append, List.length_cons, List.length_nil] at *
    omega
  | publish0 h1 h3 h4 =>
    left
    have e1 := sec_le PublishProperties.within h4
    simp only [body, if_true, List.length_append, List.length_nil] at *
    omega
  | publish h1 h2 h3 h4 h5 h6 =>
    left
    have e1 := sec_le PublishProperties.within h6
    simp only [body, h3, if_false, List.length_append] at *
    omega
  | pubAck2 h1 => exact .inl (Nat.le_refl _)
  | pubRec2 h1 => exact .inl (Nat.le_refl _)
  | pubRel2 h1 => exact .inl (Nat.le_refl _)
  | pubComp2 h1 => exact .inl (Nat.le_refl _)
  | pubAck3 h1 =>
    rcases hack PubAckProperties.toList _ _ with h | h
    · exact .inl h
    · exact .inr ⟨_, _, rfl, h.1, by simp [typeNum], h.2⟩
  | pubRec3 h1 =>
    rcases hack PubRecProperties.toList _ _ with h | h
    · exact .inl h
    · exact .inr ⟨_, _, rfl, h.1, by simp [typeNum], h.2⟩
  | pubRel3 h1 =>
    rcases hack PubRelProperties.toList _ _ with h | h
    · exact .inl h
    · exact .inr ⟨_, _, rfl, h.1, by simp [typeNum], h.2⟩
  | pubComp3 h1 =>
    rcases hack PubCompProperties.toList _ _ with h | h
    · exact .inl h
    · exact .inr ⟨_, _, rfl, h.1, by simp [typeNum], h.2⟩
  | @pubAck k rc _ s h1 h2 =>
    left
    have e1 := tail_le (pubAckCode rc) (sec_le PubAckProperties.within h2)
    simp only [body, List.length_append, List.length_cons, List.length_nil] at *
    omega
  | @pubRec k rc _ s h1 h2 =>
    left
    have e1 := tail_le (pubRecCode rc) (sec_le PubRecProperties.within h2)
    simp only [body, List.length_append, List.length_cons, List.length_nil] at *
    omega
  | @pubRel k rc _ s h1 h2 =>
    left
    have e1 := tail_le (pubRelCode rc) (sec_le PubRelProperties.within h2)
    simp only [body, List.length_append, List.length_cons, List.length_nil] at *
    omega
  | @pubComp k rc _ s h1 h2 =>
    left
    have e1 := tail_le (pubCompCode rc) (sec_le PubCompProperties.within h2)
    simp only [body, List.length_append, List.length_cons, List.length_nil] at *
    omega
  | subscribe h1 h2 h3 h4 h5 =>
    left
    have e1 := sec_le SubscribeProperties.within h2
    have e2 := filters_len h4
    simp only [body, List.length_append] at *
    omega
  | subAck h1 h2 h3 =>
    left
    have e1 := sec_le SubAckProperties.within h2
    simp only [body, List.length_append] at *
    omega
  | unsubscribe h1 h2 h3 h4 =>
    left
    have e1 := sec_le UnsubscribeProperties.within h2
    simp only [body, List.length_append] at *
    omega
  | unsubAck h1 h2 h3 =>
    left
    have e1 := sec_le UnsubAckProperties.within h2
    simp only [body, List.length_append] at *
    omega
  | pingReq => exact .inl (Nat.le_refl _)
  | pingResp => exact .inl (Nat.le_refl _)
  | disconnect0 => exact .inl (Nat.le_refl _)
  | disconnect1 => exact absurd rfl (hd _ rfl)
  | @disconnect rc _ s h1 =>
    left
    have e1 := tail_le (disconnectCode rc) (sec_le DisconnectProperties.within h1)
    simp only [body, List.length_append, List.length_cons, List.length_nil] at *
    omega

/-- The encoding of a short acknowledgement has the property length too. -/
theorem short_body {flags : Nat} {i j code : UInt8} {p : Packet} {ps : List Property}
    (h : Body5 flags [i, j, code] p ps) (ht : typeNum p ∈ [4, 5, 6, 7]) (hc : code ≠ 0) :
    (body p).length = 4 := by
  generalize hbd : [i, j, code] = bd at h
  have hsec : ∀ {ids many : List UInt8} {l : List Property} {s : Bytes} {k : UInt16} {c : UInt8},
      Section5 ids many l s → [i, j, code] = u16 k ++ [c] ++ s → False := by
    intro ids many l s k c h1 h2
    have h3 := congrArg List.length h2
    have h4 := varint_length_pos (encProps l).length
    rw [h1.bytes] at h3
    simp [propSection] at h3
    omega
  have hack : ∀ {α : Type} (toList : α → List Property) {k : UInt16} {c : UInt8},
      [i, j, code] = u16 k ++ [c] → (u16 k ++ ackTail c toList none).length = 4 := by
    intro α toList k c h2
    have : code = c := by
      simp only [u16, List.cons_append, List.nil_append, List.cons.injEq] at h2
      exact h2.2.2.1
    subst this
    simp [ackTail, hc, propSection_nil_len]
  cases h <;> simp [typeNum] at ht
  · have := congrArg List.length hbd; simp at this
  · exact hack PubAckProperties.toList hbd
  · rename_i h1 h2; exact (hsec h2 hbd).elim
  · have := congrArg List.length hbd; simp at this
  · exact hack PubRecProperties.toList hbd
  · rename_i h1 h2; exact (hsec h2 hbd).elim
  · have := congrArg List.length hbd; simp at this
  · exact hack PubRelProperties.toList hbd
  · rename_i h1 h2; exact (hsec h2 hbd).elim
  · have := congrArg List.length hbd; simp at this
  · exact hack PubCompProperties.toList hbd
  · rename_i h1 h2; exact (hsec h2 hbd).elim

end Mqtt
