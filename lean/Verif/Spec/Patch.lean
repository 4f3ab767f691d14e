import Verif.Spec.Fields
/-
Packet identifiers and PUBLISH flags inside an encoded packet.
-/
namespace Spec

open Mqtt (Bytes Packet)

/-- The packet identifier a packet carries on the wire, if any (MQTT 5, 2.2.1: a PUBLISH has one
only above QoS 0). -/
def packetId : Packet → Option UInt16
  | .Publish p => if p.qos = .AtMostOnce then none else some p.pkid
  | .PubAck p => some p.pkid
  | .PubRec p => some p.pkid
  | .PubRel p => some p.pkid
  | .PubComp p => some p.pkid
  | .Subscribe p => some p.pkid
  | .SubAck p => some p.pkid
  | .Unsubscribe p => some p.pkid
  | .UnsubAck p => some p.pkid
  | _ => none

/-- The same packet with another packet identifier. -/
def withId (k : UInt16) : Packet → Packet
  | .Publish p => .Publish { p with pkid := k }
  | .PubAck p => .PubAck { p with pkid := k }
  | .PubRec p => .PubRec { p with pkid := k }
  | .PubRel p => .PubRel { p with pkid := k }
  | .PubComp p => .PubComp { p with pkid := k }
  | .Subscribe p => .Subscribe { p with pkid := k }
  | .SubAck p => .SubAck { p with pkid := k }
  | .Unsubscribe p => .Unsubscribe { p with pkid := k }
  | .UnsubAck p => .UnsubAck { p with pkid := k }
  | p => p

/-- What stands in the body before the packet identifier: nothing, for a PUBLISH the topic. -/
def beforeId : Packet → Bytes
  | .Publish p => str p.topic
  | _ => []

/-- Is it a PUBLISH? -/
def IsPublish : Packet → Prop
  | .Publish _ => True
  | _ => False

end Spec
