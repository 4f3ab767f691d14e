import Verif.Spec.Packet
/-
The frames this library accepts, as a grammar. It deviates from MQTT 5 in the places listed in
DESIGN.md ("accepted language"); where it does, the definitions say so.
-/
namespace Spec

open Mqtt (Bytes StrMode Packet QoS)

/-- A property section as the library reads it: an announced length, then properties while the
library's cursor is below the announced length. The last property may extend beyond it. -/
inductive PropSec (mode : StrMode) (ids : List UInt8) : Option (List Property) → Bytes → Prop
  | absent {v : Bytes} : VarintRep v 0 → PropSec mode ids none v
  | present {v : Bytes} {plen : Nat} {ps : List Property} {ws : Bytes} {c : Nat} :
      VarintRep v plen → 0 < plen → Run plen 0 ps ws c → plen ≤ c →
      (∀ p ∈ ps, p.Ok mode ids) → PropSec mode ids (some ps) (v ++ ws)

/-- `w` is a sequence of wire forms of the members of a list. -/
inductive SeqRep {α : Type} (R : α → Bytes → Prop) : List α → Bytes → Prop
  | nil : SeqRep R [] []
  | cons {x : α} {w : Bytes} {xs : List α} {ws : Bytes} :
      R x w → SeqRep R xs ws → SeqRep R (x :: xs) (w ++ ws)

/-- A text field that can be read. -/
def TextField (mode : StrMode) (s : Bytes) : Prop := s.length ≤ 65535 ∧ TextOk mode s

/-- A subscription on the wire; the two reserved bits of the options are ignored. -/
def FilterRep (mode : StrMode) (f : Mqtt.Filter) (w : Bytes) : Prop :=
  TextField mode f.path ∧ ∃ o : UInt8, o.toNat % 64 = filterOptions f ∧ w = str f.path ++ [o]

/-- Reason code and properties of an acknowledgement: both absent, only the properties absent,
or both present; then trailing bytes are ignored. -/
def AckTailRep {α : Type} (mode : StrMode) (ids : List UInt8) (ofList : List Property → α)
    (code : UInt8) (o : Option α) (w : Bytes) : Prop :=
  (w = [] ∧ code = 0 ∧ o = none) ∨ (w = [code] ∧ o = none) ∨
  ∃ ps s trail, w = [code] ++ s ++ trail ∧ PropSec mode ids ps s ∧ o = ps.map ofList

/-- The will in a CONNECT payload, governed by flag bits 2 (will), 4-3 (QoS) and 5 (retain). -/
def WillRep (mode : StrMode) (flags : Nat) : Option Mqtt.LastWill → Bytes → Prop
  | none, w => flags / 4 % 16 = 0 ∧ w = []
  | some will, w =>
    flags / 4 % 2 = 1 ∧ qosNum will.qos = flags / 8 % 4 ∧ bit will.retain = flags / 32 % 2 ∧
    will.topic.length ≤ 65535 ∧ will.message.length ≤ 65535 ∧
    ∃ ps s, PropSec mode LastWillProperties.allowed ps s ∧
      will.properties = ps.map LastWillProperties.ofList ∧
      w = s ++ str will.topic ++ str will.message

/-- A field present exactly if its flag bit is 1; an absent one reads as empty. -/
def FlagField (mode : StrMode) (flag : Nat) (s w : Bytes) : Prop :=
  (flag = 1 ∧ TextField mode s ∧ w = str s) ∨ (flag = 0 ∧ s = [] ∧ w = [])

/-- User name (bit 7) and password (bit 6); two empty ones count as no login. -/
def LoginRep (mode : StrMode) (flags : Nat) (login : Option Mqtt.Login) (w : Bytes) : Prop :=
  ∃ u p wu wp, FlagField mode (flags / 128 % 2) u wu ∧ FlagField mode (flags / 64 % 2) p wp ∧
    w = wu ++ wp ∧
    login = (if u = [] ∧ p = [] then none else some { username := u, password := p })

/-- MQTT 5, table 2-1: control packet types. -/
def typeNum : Packet → Nat
  | .Connect .. => 1
  | .ConnAck _ => 2
  | .Publish _ => 3
  | .PubAck _ => 4
  | .PubRec _ => 5
  | .PubRel _ => 6
  | .PubComp _ => 7
  | .Subscribe _ => 8
  | .SubAck _ => 9
  | .Unsubscribe _ => 10
  | .UnsubAck _ => 11
  | .PingReq => 12
  | .PingResp => 13
  | .Disconnect _ => 14

/-- `body` is accepted as variable header and payload of `p` after the header byte `b1`. -/
def BodyRep (mode : StrMode) (b1 : Nat) (body : Bytes) : Packet → Prop
  | .Connect c will login =>
    ∃ (flags : UInt8) (ps : Option (List Property)) (s ww wl trail : Bytes),
      body = str [0x4D, 0x51, 0x54, 0x54] ++ [0x05] ++ [flags] ++ u16 c.keep_alive ++ s
        ++ str c.client_id ++ ww ++ wl ++ trail ∧
      bit c.clean_start = flags.toNat / 2 % 2 ∧
      PropSec mode ConnectProperties.allowed ps s ∧
      c.properties = ps.map ConnectProperties.ofList ∧
      TextField mode c.client_id ∧
      WillRep mode flags.toNat will ww ∧ LoginRep mode flags.toNat login wl
  | .ConnAck p =>
    ∃ (flags code : UInt8) (ps : Option (List Property)) (s trail : Bytes),
      body = [flags] ++ [code] ++ s ++ trail ∧
      bit p.session_present = flags.toNat % 2 ∧ connAckCode p.code = some code ∧
      PropSec mode ConnAckProperties.allowed ps s ∧
      p.properties = ps.map ConnAckProperties.ofList
  | .Publish p =>
    bit p.dup = b1 / 8 % 2 ∧ qosNum p.qos = b1 / 2 % 4 ∧ bit p.retain = b1 % 2 ∧
    (p.pkid = 0 ↔ p.qos = .AtMostOnce) ∧ TextField mode p.topic ∧
    ∃ (ps : Option (List Property)) (s : Bytes),
      body = str p.topic ++ (if p.qos = .AtMostOnce then [] else u16 p.pkid) ++ s ++ p.payload ∧
      PropSec mode PublishProperties.allowed ps s ∧
      p.properties = ps.map PublishProperties.ofList
  | .PubAck p => ∃ w, body = u16 p.pkid ++ w ∧
      AckTailRep mode PubAckProperties.allowed PubAckProperties.ofList (pubAckCode p.reason)
        p.properties w
  | .PubRec p => ∃ w, body = u16 p.pkid ++ w ∧
      AckTailRep mode PubRecProperties.allowed PubRecProperties.ofList (pubRecCode p.reason)
        p.properties w
  | .PubRel p => ∃ w, body = u16 p.pkid ++ w ∧
      AckTailRep mode PubRelProperties.allowed PubRelProperties.ofList (pubRelCode p.reason)
        p.properties w
  | .PubComp p => ∃ w, body = u16 p.pkid ++ w ∧
      AckTailRep mode PubCompProperties.allowed PubCompProperties.ofList (pubCompCode p.reason)
        p.properties w
  | .Subscribe p =>
    p.filters ≠ [] ∧ ∃ (ps : Option (List Property)) (s w : Bytes),
      body = u16 p.pkid ++ s ++ w ∧ PropSec mode SubscribeProperties.allowed ps s ∧
      p.properties = ps.map SubscribeProperties.ofList ∧
      SeqRep (FilterRep mode) p.filters w
  | .SubAck p =>
    p.return_codes ≠ [] ∧ ∃ (ps : Option (List Property)) (s : Bytes),
      body = u16 p.pkid ++ s ++ p.return_codes.map subAckCode ∧
      PropSec mode SubAckProperties.allowed ps s ∧
      p.properties = ps.map SubAckProperties.ofList
  | .Unsubscribe p =>
    ∃ (ps : Option (List Property)) (s w : Bytes),
      body = u16 p.pkid ++ s ++ w ∧ PropSec mode UnsubscribeProperties.allowed ps s ∧
      p.properties = ps.map UnsubscribeProperties.ofList ∧
      SeqRep (fun f w => TextField mode f ∧ w = str f) p.filters w
  | .UnsubAck p =>
    p.reasons ≠ [] ∧ ∃ (ps : Option (List Property)) (s : Bytes),
      body = u16 p.pkid ++ s ++ p.reasons.map unsubAckCode ∧
      PropSec mode UnsubAckProperties.allowed ps s ∧
      p.properties = ps.map UnsubAckProperties.ofList
  | .PingReq => True
  | .PingResp => True
  | .Disconnect p =>
    b1 % 16 = 0 ∧
    ((body = [] ∧ p.reason_code = .NormalDisconnection ∧ p.properties = none) ∨
      ∃ (ps : Option (List Property)) (s trail : Bytes),
        body = [disconnectCode p.reason_code] ++ s ++ trail ∧
        PropSec mode DisconnectProperties.allowed ps s ∧
        p.properties = ps.map DisconnectProperties.ofList)

/-- `f` is accepted as one frame and stands for `p`: the type in the upper half of the first
byte, then the remaining length (not necessarily in shortest form), then the body. -/
def FrameRep (mode : StrMode) (f : Bytes) (p : Packet) : Prop :=
  ∃ b1 v body, f = b1 :: (v ++ body) ∧ VarintRep v body.length ∧ b1.toNat / 16 = typeNum p ∧
    BodyRep mode b1.toNat body p

end Spec
