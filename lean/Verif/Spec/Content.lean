import Verif.Spec.Api
/-
Vocabulary for the properties about the content of frames (C23-C29, C32-C40).
-/
namespace Spec

open Mqtt (Bytes StrMode Packet QoS)

/-- `f` is one frame with first byte `b1` and the given body; the remaining length need not be in
shortest form. -/
def FrameOf (b1 : UInt8) (body f : Bytes) : Prop :=
  ∃ v, f = b1 :: (v ++ body) ∧ VarintRep v body.length

/-- MQTT 5, 2.2.2: a property section with its exact length. Numbers may be padded. -/
def SectionRep (ps : List Property) (s : Bytes) : Prop :=
  ∃ v ws, s = v ++ ws ∧ VarintRep v ws.length ∧ SeqRep PropRep ps ws

/-- The optional record for a list of properties: no property means no record. -/
def propsOf {α : Type} (ofList : List Property → α) (ps : List Property) : Option α :=
  if ps = [] then none else some (ofList ps)

/-- The two lists hold the same properties in the same order kind by kind; only the relative order
of properties of different kinds differs. -/
def SameByKind (ps qs : List Property) : Prop :=
  ∀ k : UInt8, ps.filter (·.id = k) = qs.filter (·.id = k)

/-- `SectionAt mode b1 ids pre`: in a packet with first byte `b1`, if the body starts with `pre`
then a property section comes next, in which the identifiers `ids` are allowed. -/
inductive SectionAt (mode : StrMode) (b1 : UInt8) : List UInt8 → Bytes → Prop
  | connect (flags : UInt8) (keepAlive : UInt16) : b1.toNat / 16 = 1 →
      SectionAt mode b1 ConnectProperties.allowed
        (str [0x4D, 0x51, 0x54, 0x54] ++ [0x05] ++ [flags] ++ u16 keepAlive)
  | will (flags : UInt8) (keepAlive : UInt16) {ps : List Property} {s clientId : Bytes} :
      b1.toNat / 16 = 1 → flags.toNat / 4 % 2 = 1 → SectionRep ps s →
      (∀ p ∈ ps, p.Ok mode ConnectProperties.allowed) → TextField mode clientId →
      SectionAt mode b1 LastWillProperties.allowed
        (str [0x4D, 0x51, 0x54, 0x54] ++ [0x05] ++ [flags] ++ u16 keepAlive ++ s ++ str clientId)
  | connAck (flags code : UInt8) : b1.toNat / 16 = 2 →
      SectionAt mode b1 ConnAckProperties.allowed ([flags] ++ [code])
  | publish0 {topic : Bytes} : b1.toNat / 16 = 3 → b1.toNat / 2 % 4 = 0 → TextField mode topic →
      SectionAt mode b1 PublishProperties.allowed (str topic)
  | publish {topic : Bytes} {pkid : UInt16} : b1.toNat / 16 = 3 →
      (b1.toNat / 2 % 4 = 1 ∨ b1.toNat / 2 % 4 = 2) → TextField mode topic → pkid ≠ 0 →
      SectionAt mode b1 PublishProperties.allowed (str topic ++ u16 pkid)
  | pubAck (pkid : UInt16) (code : UInt8) : b1.toNat / 16 = 4 →
      SectionAt mode b1 PubAckProperties.allowed (u16 pkid ++ [code])
  | pubRec (pkid : UInt16) (code : UInt8) : b1.toNat / 16 = 5 →
      SectionAt mode b1 PubRecProperties.allowed (u16 pkid ++ [code])
  | pubRel (pkid : UInt16) (code : UInt8) : b1.toNat / 16 = 6 →
      SectionAt mode b1 PubRelProperties.allowed (u16 pkid ++ [code])
  | pubComp (pkid : UInt16) (code : UInt8) : b1.toNat / 16 = 7 →
      SectionAt mode b1 PubCompProperties.allowed (u16 pkid ++ [code])
  | subscribe (pkid : UInt16) : b1.toNat / 16 = 8 →
      SectionAt mode b1 SubscribeProperties.allowed (u16 pkid)
  | subAck (pkid : UInt16) : b1.toNat / 16 = 9 →
      SectionAt mode b1 SubAckProperties.allowed (u16 pkid)
  | unsubscribe (pkid : UInt16) : b1.toNat / 16 = 10 →
      SectionAt mode b1 UnsubscribeProperties.allowed (u16 pkid)
  | unsubAck (pkid : UInt16) : b1.toNat / 16 = 11 →
      SectionAt mode b1 UnsubAckProperties.allowed (u16 pkid)
  | disconnect (rc : Mqtt.DisconnectReasonCode) : b1 = 0xE0 →
      SectionAt mode b1 DisconnectProperties.allowed [disconnectCode rc]

/-- What may follow a reason code: nothing, or a property section (and bytes that are ignored). -/
def CodeTail {α : Type} (mode : StrMode) (ids : List UInt8) (ofList : List Property → α)
    (o : Option α) (w : Bytes) : Prop :=
  (w = [] ∧ o = none) ∨
  ∃ ps s trail, w = s ++ trail ∧ SectionRep ps s ∧ (∀ p ∈ ps, p.Ok mode ids) ∧
    o = propsOf ofList ps

end Spec
