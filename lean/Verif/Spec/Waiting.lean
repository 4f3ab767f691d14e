import Verif.Spec.Cut
/-
A receiver that calls `Packet::read` in a loop, returns the packets, and on `InsufficientBytes(k)`
waits until at least `k` more bytes have arrived (C54).
-/
namespace Spec

open Mqtt (Bytes StrMode Packet Err)

/-- `Waits mode max buf s ps e`: with `buf` in the buffer and `s` still to arrive, the loop can
return the packets `ps` and then end with the error `e`, or wait forever (`none`). How many bytes
arrive at a time is open. -/
inductive Waits (mode : StrMode) (max : Option Nat) :
    Bytes → Bytes → List Packet → Option Err → Prop
  /-- a packet is returned -/
  | got {buf b s : Bytes} {p : Packet} {ps : List Packet} {e : Option Err} :
      Mqtt.Packet.read mode max buf = (.ok p, b) → Waits mode max b s ps e →
      Waits mode max buf s (p :: ps) e
  /-- `k` bytes are asked for, and at least so many arrive -/
  | more {buf b x y : Bytes} {k : Nat} {ps : List Packet} {e : Option Err} :
      Mqtt.Packet.read mode max buf = (.err (.InsufficientBytes k), b) → k ≤ x.length →
      Waits mode max (b ++ x) y ps e → Waits mode max buf (x ++ y) ps e
  /-- `k` bytes are asked for, and so many will never arrive -/
  | starve {buf b s : Bytes} {k : Nat} :
      Mqtt.Packet.read mode max buf = (.err (.InsufficientBytes k), b) → s.length < k →
      Waits mode max buf s [] none
  /-- another error -/
  | fail {buf b s : Bytes} {e : Err} :
      Mqtt.Packet.read mode max buf = (.err e, b) → (∀ k, e ≠ .InsufficientBytes k) →
      Waits mode max buf s [] (some e)

/-- What is in the stream `b`: the packets of its frames up to the first defect, and the defect; or,
without a defect, nothing but an incomplete frame behind them (`none`). A stream with a frame that
breaks off in a property section has no such account. -/
inductive Holds (mode : StrMode) (max : Option Nat) : Bytes → List Packet → Option Err → Prop
  | packet {f r : Bytes} {n : Nat} {p : Packet} {ps : List Packet} {e : Option Err} :
      FrameRep mode f p → RemLen f n → Admits max n → Holds mode max r ps e →
      Holds mode max (f ++ r) (p :: ps) e
  | rest {b : Bytes} {k : Nat} : HeadErr max b (.InsufficientBytes k) → Holds mode max b [] none
  | head {b : Bytes} {e : Err} : HeadErr max b e → (∀ k, e ≠ .InsufficientBytes k) →
      Holds mode max b [] (some e)
  | frame {b1 : UInt8} {v body r : Bytes} {e : Err} : VarintRep v body.length →
      Admits max body.length → FrameErr mode b1.toNat body e → (∀ k, e ≠ .InsufficientBytes k) →
      Holds mode max (b1 :: (v ++ (body ++ r))) [] (some e)

/-- Behind some good frames the stream has one that breaks off in a property section. -/
def HasCut (mode : StrMode) (max : Option Nat) (b : Bytes) : Prop :=
  ∃ ps b1 v body r, ReadAll mode max b ps (b1 :: (v ++ (body ++ r))) ∧
    VarintRep v body.length ∧ Admits max body.length ∧ FrameCut mode b1.toNat body

end Spec
