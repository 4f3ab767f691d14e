import Verif.Proofs.PropLoop
import Verif.Spec.Codes
/-
Reason codes: both directions.
-/
namespace Mqtt

open Spec

/-- A statement about all bytes, from all numbers below 256. -/
theorem u8_all {P : UInt8 → Prop} (h : ∀ n : Fin 256, P (UInt8.ofNat n.val)) (x : UInt8) : P x := by
  have := h ⟨x.toNat, u8_lt x⟩
  simpa only [UInt8.ofNat_toNat] using this

/-! ### PubAckReason -/

theorem PubAckReason.ofU8_code (r : PubAckReason) : PubAckReason.ofU8 (pubAckCode r) = .ok r := by
  cases r <;> rfl

theorem PubAckReason.ofU8_spec (x : UInt8) :
    (∃ r, PubAckReason.ofU8 x = .ok r ∧ pubAckCode r = x) ∨
      PubAckReason.ofU8 x = .err (.InvalidConnectReturnCode x) := by
  have key := u8_all (P := fun x => (match PubAckReason.ofU8 x with
      | .ok r => decide (pubAckCode r = x)
      | .err e => decide (e = .InvalidConnectReturnCode x)
      | _ => false) = true) (by decide +kernel) x
  cases h : PubAckReason.ofU8 x <;> simp_all

theorem PubAckReason.ofU8_ok {x : UInt8} {r : PubAckReason} :
    PubAckReason.ofU8 x = .ok r ↔ x = pubAckCode r := by
  constructor
  · intro h
    rcases PubAckReason.ofU8_spec x with ⟨r', h', rfl⟩ | h'
    · rw [h'] at h; cases h; rfl
    · rw [h'] at h; cases h
  · rintro rfl; exact PubAckReason.ofU8_code r

theorem Good.PubAckReason (x : UInt8) : Good (Mqtt.liftOut (PubAckReason.ofU8 x)) := by
  rcases PubAckReason.ofU8_spec x with ⟨r, h, -⟩ | h <;> rw [h] <;> exact Good.liftOut (by simp) (by simp)

/-! ### PubRecReason -/

theorem PubRecReason.ofU8_code (r : PubRecReason) : PubRecReason.ofU8 (pubRecCode r) = .ok r := by
  cases r <;> rfl

theorem PubRecReason.ofU8_spec (x : UInt8) :
    (∃ r, PubRecReason.ofU8 x = .ok r ∧ pubRecCode r = x) ∨
      PubRecReason.ofU8 x = .err (.InvalidConnectReturnCode x) := by
  have key := u8_all (P := fun x => (match PubRecReason.ofU8 x with
      | .ok r => decide (pubRecCode r = x)
      | .err e => decide (e = .InvalidConnectReturnCode x)
      | _ => false) = true) (by decide +kernel) x
  cases h : PubRecReason.ofU8 x <;> simp_all

theorem PubRecReason.ofU8_ok {x : UInt8} {r : PubRecReason} :
    PubRecReason.ofU8 x = .ok r ↔ x = pubRecCode r := by
  constructor
  · intro h
    rcases PubRecReason.ofU8_spec x with ⟨r', h', rfl⟩ | h'
    · rw [h'] at h; cases h; rfl
    · rw [h'] at h; cases h
  · rintro rfl; exact PubRecReason.ofU8_code r

theorem Good.PubRecReason (x : UInt8) : Good (Mqtt.liftOut (PubRecReason.ofU8 x)) := by
  rcases PubRecReason.ofU8_spec x with ⟨r, h, -⟩ | h <;> rw [h] <;> exact Good.liftOut (by simp) (by simp)

/-! ### PubRelReason -/

theorem PubRelReason.ofU8_code (r : PubRelReason) : PubRelReason.ofU8 (pubRelCode r) = .ok r := by
  cases r <;> rfl

theorem PubRelReason.ofU8_spec (x : UInt8) :
    (∃ r, PubRelReason.ofU8 x = .ok r ∧ pubRelCode r = x) ∨
      PubRelReason.ofU8 x = .err (.InvalidConnectReturnCode x) := by
  have key := u8_all (P := fun x => (match PubRelReason.ofU8 x with
      | .ok r => decide (pubRelCode r = x)
      | .err e => decide (e = .InvalidConnectReturnCode x)
      | _ => false) = true) (by decide +kernel) x
  cases h : PubRelReason.ofU8 x <;> simp_all

theorem PubRelReason.ofU8_ok {x : UInt8} {r : PubRelReason} :
    PubRelReason.ofU8 x = .ok r ↔ x = pubRelCode r := by
  constructor
  · intro h
    rcases PubRelReason.ofU8_spec x with ⟨r', h', rfl⟩ | h'
    · rw [h'] at h; cases h; rfl
    · rw [h'] at h; cases h
  · rintro rfl; exact PubRelReason.ofU8_code r

theorem Good.PubRelReason (x : UInt8) : Good (Mqtt.liftOut (PubRelReason.ofU8 x)) := by
  rcases PubRelReason.ofU8_spec x with ⟨r, h, -⟩ | h <;> rw [h] <;> exact Good.liftOut (by simp) (by simp)

/-! ### PubCompReason -/

theorem PubCompReason.ofU8_code (r : PubCompReason) : PubCompReason.ofU8 (pubCompCode r) = .ok r := by
  cases r <;> rfl

theorem PubCompReason.ofU8_spec (x : UInt8) :
    (∃ r, PubCompReason.ofU8 x = .ok r ∧ pubCompCode r = x) ∨
      PubCompReason.ofU8 x = .err (.InvalidConnectReturnCode x) := by
  have key := u8_all (P := fun x => (match PubCompReason.ofU8 x with
      | .ok r => decide (pubCompCode r = x)
      | .err e => decide (e = .InvalidConnectReturnCode x)
      | _ => false) = true) (by decide +kernel) x
  cases h : PubCompReason.ofU8 x <;> simp_all

theorem PubCompReason.ofU8_ok {x : UInt8} {r : PubCompReason} :
    PubCompReason.ofU8 x = .ok r ↔ x = pubCompCode r := by
  constructor
  · intro h
    rcases PubCompReason.ofU8_spec x with ⟨r', h', rfl⟩ | h'
    · rw [h'] at h; cases h; rfl
    · rw [h'] at h; cases h
  · rintro rfl; exact PubCompReason.ofU8_code r

theorem Good.PubCompReason (x : UInt8) : Good (Mqtt.liftOut (PubCompReason.ofU8 x)) := by
  rcases PubCompReason.ofU8_spec x with ⟨r, h, -⟩ | h <;> rw [h] <;> exact Good.liftOut (by simp) (by simp)

/-! ### SubscribeReasonCode -/

theorem SubscribeReasonCode.ofU8_code (r : SubscribeReasonCode) : SubscribeReasonCode.ofU8 (subAckCode r) = .ok r := by
  rcases r with (_ | _ | _) | _ | _ | _ | _ | _ | _ | _ | _ | _ <;> rfl

theorem SubscribeReasonCode.ofU8_spec (x : UInt8) :
    (∃ r, SubscribeReasonCode.ofU8 x = .ok r ∧ subAckCode r = x) ∨
      SubscribeReasonCode.ofU8 x = .err (.InvalidSubscribeReasonCode x) := by
  have key := u8_all (P := fun x => (match SubscribeReasonCode.ofU8 x with
      | .ok r => decide (subAckCode r = x)
      | .err e => decide (e = .InvalidSubscribeReasonCode x)
      | _ => false) = true) (by decide +kernel) x
  cases h : SubscribeReasonCode.ofU8 x <;> simp_all

theorem SubscribeReasonCode.ofU8_ok {x : UInt8} {r : SubscribeReasonCode} :
    SubscribeReasonCode.ofU8 x = .ok r ↔ x = subAckCode r := by
  constructor
  · intro h
    rcases SubscribeReasonCode.ofU8_spec x with ⟨r', h', rfl⟩ | h'
    · rw [h'] at h; cases h; rfl
    · rw [h'] at h; cases h
  · rintro rfl; exact SubscribeReasonCode.ofU8_code r

theorem Good.SubscribeReasonCode (x : UInt8) : Good (Mqtt.liftOut (SubscribeReasonCode.ofU8 x)) := by
  rcases SubscribeReasonCode.ofU8_spec x with ⟨r, h, -⟩ | h <;> rw [h] <;> exact Good.liftOut (by simp) (by simp)

/-! ### UnsubAckReason -/

theorem UnsubAckReason.ofU8_code (r : UnsubAckReason) : UnsubAckReason.ofU8 (unsubAckCode r) = .ok r := by
  cases r <;> rfl

theorem UnsubAckReason.ofU8_spec (x : UInt8) :
    (∃ r, UnsubAckReason.ofU8 x = .ok r ∧ unsubAckCode r = x) ∨
      UnsubAckReason.ofU8 x = .err (.InvalidSubscribeReasonCode x) := by
  have key := u8_all (P := fun x => (match UnsubAckReason.ofU8 x with
      | .ok r => decide (unsubAckCode r = x)
      | .err e => decide (e = .InvalidSubscribeReasonCode x)
      | _ => false) = true) (by decide +kernel) x
  cases h : UnsubAckReason.ofU8 x <;> simp_all

theorem UnsubAckReason.ofU8_ok {x : UInt8} {r : UnsubAckReason} :
    UnsubAckReason.ofU8 x = .ok r ↔ x = unsubAckCode r := by
  constructor
  · intro h
    rcases UnsubAckReason.ofU8_spec x with ⟨r', h', rfl⟩ | h'
    · rw [h'] at h; cases h; rfl
    · rw [h'] at h; cases h
  · rintro rfl; exact UnsubAckReason.ofU8_code r

theorem Good.UnsubAckReason (x : UInt8) : Good (Mqtt.liftOut (UnsubAckReason.ofU8 x)) := by
  rcases UnsubAckReason.ofU8_spec x with ⟨r, h, -⟩ | h <;> rw [h] <;> exact Good.liftOut (by simp) (by simp)

/-! ### DisconnectReasonCode -/

theorem DisconnectReasonCode.ofU8_code (r : DisconnectReasonCode) : DisconnectReasonCode.ofU8 (disconnectCode r) = .ok r := by
  cases r <;> rfl

theorem DisconnectReasonCode.ofU8_spec (x : UInt8) :
    (∃ r, DisconnectReasonCode.ofU8 x = .ok r ∧ disconnectCode r = x) ∨
      DisconnectReasonCode.ofU8 x = .err (.InvalidConnectReturnCode x) := by
  have key := u8_all (P := fun x => (match DisconnectReasonCode.ofU8 x with
      | .ok r => decide (disconnectCode r = x)
      | .err e => decide (e = .InvalidConnectReturnCode x)
      | _ => false) = true) (by decide +kernel) x
  cases h : DisconnectReasonCode.ofU8 x <;> simp_all

theorem DisconnectReasonCode.ofU8_ok {x : UInt8} {r : DisconnectReasonCode} :
    DisconnectReasonCode.ofU8 x = .ok r ↔ x = disconnectCode r := by
  constructor
  · intro h
    rcases DisconnectReasonCode.ofU8_spec x with ⟨r', h', rfl⟩ | h'
    · rw [h'] at h; cases h; rfl
    · rw [h'] at h; cases h
  · rintro rfl; exact DisconnectReasonCode.ofU8_code r

theorem Good.DisconnectReasonCode (x : UInt8) : Good (Mqtt.liftOut (DisconnectReasonCode.ofU8 x)) := by
  rcases DisconnectReasonCode.ofU8_spec x with ⟨r, h, -⟩ | h <;> rw [h] <;> exact Good.liftOut (by simp) (by simp)

/-! ### ConnectReturnCode -/

theorem ConnectReturnCode.ofU8_code {r : ConnectReturnCode} {x : UInt8} (h : connAckCode r = some x) :
    ConnectReturnCode.ofU8 x = .ok r := by
  cases r <;> cases h <;> rfl

theorem ConnectReturnCode.ofU8_spec (x : UInt8) :
    (∃ r, ConnectReturnCode.ofU8 x = .ok r ∧ connAckCode r = some x) ∨
      ConnectReturnCode.ofU8 x = .err (.InvalidConnectReturnCode x) := by
  have key := u8_all (P := fun x => (match ConnectReturnCode.ofU8 x with
      | .ok r => decide (connAckCode r = some x)
      | .err e => decide (e = .InvalidConnectReturnCode x)
      | _ => false) = true) (by decide +kernel) x
  cases h : ConnectReturnCode.ofU8 x <;> simp_all

theorem ConnectReturnCode.ofU8_ok {x : UInt8} {r : ConnectReturnCode} :
    ConnectReturnCode.ofU8 x = .ok r ↔ connAckCode r = some x := by
  constructor
  · intro h
    rcases ConnectReturnCode.ofU8_spec x with ⟨r', h', h2⟩ | h'
    · rw [h'] at h; cases h; exact h2
    · rw [h'] at h; cases h
  · exact ConnectReturnCode.ofU8_code

theorem Good.ConnectReturnCode (x : UInt8) : Good (Mqtt.liftOut (ConnectReturnCode.ofU8 x)) := by
  rcases ConnectReturnCode.ofU8_spec x with ⟨r, h, -⟩ | h <;> rw [h] <;> exact Good.liftOut (by simp) (by simp)

end Mqtt
