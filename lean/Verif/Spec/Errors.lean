import Verif.Spec.Api
/-
Which errors a complete frame can cause.
-/
namespace Spec

open Mqtt (Err StrMode)

/-- Errors that any body may cause: too few bytes for a number (`MalformedPacket`) or a string
(`BoundaryCrossed`), ill-formed text, a bad length prefix of the properties (which is reported as
`InsufficientBytes(1)` or `MalformedRemainingLength`), a foreign property. -/
def ContentError (mode : StrMode) (e : Err) : Prop :=
  e = .MalformedPacket ∨ (∃ n, n ≤ 65535 ∧ e = .BoundaryCrossed n) ∨
  (mode = .utf8 ∧ e = .TopicNotUtf8) ∨ e = .InsufficientBytes 1 ∨
  e = .MalformedRemainingLength ∨ ∃ x, e = .InvalidPropertyType x

/-- Errors that a frame with packet type `t` and a body may cause. -/
def FrameError (mode : StrMode) (t : Nat) (e : Err) : Prop :=
  match t with
  | 1 => ContentError mode e ∨ e = .InvalidProtocol ∨
      (∃ n, n ≠ 5 ∧ e = .InvalidProtocolLevel n) ∨ e = .IncorrectPacketFormat ∨ e = .InvalidQoS 3
  | 2 => ContentError mode e ∨
      ∃ n, (∀ r, connAckCode r ≠ some n) ∧ e = .InvalidConnectReturnCode n
  | 3 => ContentError mode e ∨ e = .InvalidQoS 3 ∨ e = .PacketIdZero
  | 4 => ContentError mode e ∨ ∃ n, (∀ r, pubAckCode r ≠ n) ∧ e = .InvalidConnectReturnCode n
  | 5 => ContentError mode e ∨ ∃ n, (∀ r, pubRecCode r ≠ n) ∧ e = .InvalidConnectReturnCode n
  | 6 => ContentError mode e ∨ ∃ n, (∀ r, pubRelCode r ≠ n) ∧ e = .InvalidConnectReturnCode n
  | 7 => ContentError mode e ∨ ∃ n, (∀ r, pubCompCode r ≠ n) ∧ e = .InvalidConnectReturnCode n
  | 8 => ContentError mode e ∨ e = .InvalidQoS 3 ∨ e = .InvalidRetainForwardRule 3 ∨
      e = .EmptySubscription
  | 9 => ContentError mode e ∨ ∃ n, (∀ r, subAckCode r ≠ n) ∧ e = .InvalidSubscribeReasonCode n
  | 10 => ContentError mode e
  | 11 => ContentError mode e ∨
      ∃ n, (∀ r, unsubAckCode r ≠ n) ∧ e = .InvalidSubscribeReasonCode n
  | 14 => ContentError mode e ∨
      ∃ n, (∀ r, disconnectCode r ≠ n) ∧ e = .InvalidConnectReturnCode n
  | _ => False

end Spec
