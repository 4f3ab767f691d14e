import Verif.Spec.Packet
/-
Vocabulary for C73: leaving out what a sender may leave out.
-/
namespace Spec

open Mqtt (Packet)

/-- Without Reason String and User Properties, in the packets from which MQTT 5 demands that the
sender leaves them out if they would bring the packet above the receiver's Maximum Packet Size
(3.2.2.3.9, 3.2.2.3.10, 3.4.2.2.2, 3.4.2.2.3 and so on). Everything else stays. -/
def trim : Packet → Packet
  | .ConnAck p => .ConnAck { p with
      properties := p.properties.map fun q => { q with reason_string := none, user_properties := [] } }
  | .PubAck p => .PubAck { p with
      properties := p.properties.map fun q => { q with reason_string := none, user_properties := [] } }
  | .PubRec p => .PubRec { p with
      properties := p.properties.map fun q => { q with reason_string := none, user_properties := [] } }
  | .PubRel p => .PubRel { p with
      properties := p.properties.map fun q => { q with reason_string := none, user_properties := [] } }
  | .PubComp p => .PubComp { p with
      properties := p.properties.map fun q => { q with reason_string := none, user_properties := [] } }
  | .SubAck p => .SubAck { p with
      properties := p.properties.map fun q => { q with reason_string := none, user_properties := [] } }
  | .UnsubAck p => .UnsubAck { p with
      properties := p.properties.map fun q => { q with reason_string := none, user_properties := [] } }
  | .Disconnect p => .Disconnect { p with
      properties := p.properties.map fun q => { q with reason_string := none, user_properties := [] } }
  | p => p

/-- PUBACK, PUBREC, PUBREL and PUBCOMP. -/
def IsAck : Packet → Prop
  | .PubAck _ | .PubRec _ | .PubRel _ | .PubComp _ => True
  | _ => False

/-- A DISCONNECT that tells a reason and has neither session expiry interval nor server reference. -/
def BareDisconnect : Packet → Prop
  | .Disconnect p => p.reason_code ≠ .NormalDisconnection ∧
      ∀ q, p.properties = some q → q.session_expiry_interval = none ∧ q.server_reference = none
  | _ => False

end Spec
