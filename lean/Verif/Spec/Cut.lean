import Verif.Spec.Diagnose
/-
Frames that end where a Variable Byte Integer is still needed (C19): bodies, by packet type, up to
the place where they break off.
-/
namespace Spec

open Mqtt (Bytes StrMode Err)

/-- The input ends before or within a Variable Byte Integer. -/
def Cut (w : Bytes) : Prop := w.length ≤ 3 ∧ ∀ b ∈ w, (128 : Nat) ≤ b.toNat

/-- A property section that breaks off in its length, or, after some properties and with the
announced length not yet reached, in the value of a subscription identifier (0x0B). -/
def SecCut (mode : StrMode) (ids : List UInt8) (w : Bytes) : Prop :=
  Cut w ∨ ∃ v plen ps ws c r, w = v ++ (ws ++ 0x0B :: r) ∧ VarintRep v plen ∧
    Run plen 0 ps ws c ∧ c < plen ∧ (∀ p ∈ ps, p.Ok mode ids) ∧ 0x0B ∈ ids ∧ Cut r

/-- A body that breaks off in a property section. -/
def FrameCut (mode : StrMode) (b1 : Nat) (body : Bytes) : Prop :=
  match b1 / 16 with
  | 1 => ∃ flags alive t, body = str [0x4D, 0x51, 0x54, 0x54] ++ [5, flags] ++ u16 alive ++ t ∧
      (SecCut mode ConnectProperties.allowed t ∨
       ∃ ps s id t', t = s ++ str id ++ t' ∧ PropSec mode ConnectProperties.allowed ps s ∧
         TextField mode id ∧ flags.toNat / 4 % 2 = 1 ∧ SecCut mode LastWillProperties.allowed t')
  | 2 => ∃ x y t, body = [x, y] ++ t ∧ SecCut mode ConnAckProperties.allowed t
  | 3 =>
    (b1 / 2 % 4 = 0 ∧ ∃ s t, body = str s ++ t ∧ TextField mode s ∧
      SecCut mode PublishProperties.allowed t) ∨
    ((b1 / 2 % 4 = 1 ∨ b1 / 2 % 4 = 2) ∧ ∃ s id t, body = str s ++ u16 id ++ t ∧
      TextField mode s ∧ id ≠ 0 ∧ SecCut mode PublishProperties.allowed t)
  | 4 => ∃ id x t, body = u16 id ++ [x] ++ t ∧ t ≠ [] ∧ SecCut mode PubAckProperties.allowed t
  | 5 => ∃ id x t, body = u16 id ++ [x] ++ t ∧ t ≠ [] ∧ SecCut mode PubRecProperties.allowed t
  | 6 => ∃ id x t, body = u16 id ++ [x] ++ t ∧ t ≠ [] ∧ SecCut mode PubRelProperties.allowed t
  | 7 => ∃ id x t, body = u16 id ++ [x] ++ t ∧ t ≠ [] ∧ SecCut mode PubCompProperties.allowed t
  | 8 => ∃ id t, body = u16 id ++ t ∧ SecCut mode SubscribeProperties.allowed t
  | 9 => ∃ id t, body = u16 id ++ t ∧ SecCut mode SubAckProperties.allowed t
  | 10 => ∃ id t, body = u16 id ++ t ∧ SecCut mode UnsubscribeProperties.allowed t
  | 11 => ∃ id t, body = u16 id ++ t ∧ SecCut mode UnsubAckProperties.allowed t
  | 14 => b1 % 16 = 0 ∧ ∃ r t, body = disconnectCode r :: t ∧
      SecCut mode DisconnectProperties.allowed t
  | _ => False

end Spec
