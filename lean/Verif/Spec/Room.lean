import Verif.Spec.Packet
/-
Vocabulary for C72: a message that is sent in parts.
-/
namespace Spec

open Mqtt (Bytes Publish)

/-- The message with another packet identifier and payload: the same topic, flags and properties. -/
def part (p : Publish) (id : UInt16) (x : Bytes) : Publish := { p with pkid := id, payload := x }

/-- What a receiver sees of it: no packet identifier at QoS 0, an empty property record is none. -/
def partSeen (p : Publish) (id : UInt16) (x : Bytes) : Publish := {
  part p id x with
  pkid := if p.qos = .AtMostOnce then 0 else id
  properties := normProps PublishProperties.toList p.properties }

end Spec
