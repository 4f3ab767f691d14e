import Verif.Model.Connect
import Verif.Model.ConnAck
import Verif.Model.Publish
import Verif.Model.PubAck
import Verif.Model.PubRec
import Verif.Model.PubRel
import Verif.Model.PubComp
import Verif.Model.Subscribe
import Verif.Model.SubAck
import Verif.Model.Unsubscribe
import Verif.Model.UnsubAck
import Verif.Model.Ping
import Verif.Model.Disconnect
/-
Model of `Packet` in /repo/src/lib.rs.
-/
namespace Mqtt

/-- src/lib.rs:127-142 `enum Packet`. -/
inductive Packet
  | Connect (c : Connect) (will : Option LastWill) (login : Option Login)
  | ConnAck (p : ConnAck)
  | Publish (p : Publish)
  | PubAck (p : PubAck)
  | PingReq
  | PingResp
  | Subscribe (p : Subscribe)
  | SubAck (p : SubAck)
  | PubRec (p : PubRec)
  | PubRel (p : PubRel)
  | PubComp (p : PubComp)
  | Unsubscribe (p : Unsubscribe)
  | UnsubAck (p : UnsubAck)
  | Disconnect (p : Disconnect)
  deriving DecidableEq, Repr

namespace Packet

/-- src/lib.rs:162-213, decoding of one complete frame; `packet` is the frame, header
included. -/
def readBody (mode : StrMode) (fixed_header : FixedHeader) (packet_type : PacketType)
    (packet : Bytes) : M Packet :=
  match packet_type with
  | .Connect => do
    let (connect, will, login) ← onOwned packet (Mqtt.Connect.read mode fixed_header)
    pure (.Connect connect will login)
  | .Publish => do
    let p ← onOwned packet (Mqtt.Publish.read mode fixed_header)
    pure (.Publish p)
  | .Subscribe => do
    let p ← onOwned packet (Mqtt.Subscribe.read mode fixed_header)
    pure (.Subscribe p)
  | .Unsubscribe => do
    let p ← onOwned packet (Mqtt.Unsubscribe.read mode fixed_header)
    pure (.Unsubscribe p)
  | .ConnAck => do
    let p ← onOwned packet (Mqtt.ConnAck.read mode fixed_header)
    pure (.ConnAck p)
  | .PubAck => do
    let p ← onOwned packet (Mqtt.PubAck.read mode fixed_header)
    pure (.PubAck p)
  | .PubRec => do
    let p ← onOwned packet (Mqtt.PubRec.read mode fixed_header)
    pure (.PubRec p)
  | .PubRel => do
    let p ← onOwned packet (Mqtt.PubRel.read mode fixed_header)
    pure (.PubRel p)
  | .PubComp => do
    let p ← onOwned packet (Mqtt.PubComp.read mode fixed_header)
    pure (.PubComp p)
  | .SubAck => do
    let p ← onOwned packet (Mqtt.SubAck.read mode fixed_header)
    pure (.SubAck p)
  | .UnsubAck => do
    let p ← onOwned packet (Mqtt.UnsubAck.read mode fixed_header)
    pure (.UnsubAck p)
  | .PingReq => pure .PingReq
  | .PingResp => pure .PingResp
  | .Disconnect => do
    let p ← onOwned packet (Mqtt.Disconnect.read mode fixed_header)
    pure (.Disconnect p)

/-- src/lib.rs:146-216 `Packet::read`. -/
def read (mode : StrMode) (max_size : Option Nat) : M Packet := do
  let stream ← getBuf
  let fixed_header ← liftOut (check stream max_size)
  let packet ← splitTo fixed_header.frame_length
  let packet_type ← liftOut fixed_header.packet_type
  if fixed_header.remaining_len = 0 ∧ packet_type ≠ .Disconnect then
    match packet_type with
    | .PingReq => pure .PingReq
    | .PingResp => pure .PingResp
    | _ => throwE .PayloadRequired
  else readBody mode fixed_header packet_type packet

/-- src/lib.rs:218-235 `Packet::write`. -/
def write : Packet → M Nat
  | .Publish p => p.write
  | .Subscribe p => p.write
  | .Unsubscribe p => p.write
  | .ConnAck p => p.write
  | .PubAck p => p.write
  | .SubAck p => p.write
  | .UnsubAck p => p.write
  | .PubRec p => p.write
  | .PubRel p => p.write
  | .PubComp p => p.write
  | .Connect c will login => c.write will login
  | .PingReq => Mqtt.PingReq.write
  | .PingResp => Mqtt.PingResp.write
  | .Disconnect p => p.write

end Packet

end Mqtt
