import Verif.Spec.Codes
/-
Vocabulary for C71: the packets with which MQTT 5 answers a packet.
-/
namespace Spec

open Mqtt

/-- MQTT 5, 3.1 to 3.12: the answers to a packet, without properties, with any reason codes: the same
packet identifier, and for SUBSCRIBE and UNSUBSCRIBE one code for each topic filter. CONNACK: only
the return codes of MQTT 5. -/
inductive Reply : Packet → Packet → Prop
  | connack {c : Connect} {w : Option LastWill} {l : Option Login} {session : Bool}
      {code : ConnectReturnCode} : connAckCode code ≠ none →
      Reply (.Connect c w l) (.ConnAck { session_present := session, code, properties := none })
  | puback {p : Publish} {reason : PubAckReason} : p.qos = .AtLeastOnce →
      Reply (.Publish p) (.PubAck { pkid := p.pkid, reason, properties := none })
  | pubrec {p : Publish} {reason : PubRecReason} : p.qos = .ExactlyOnce →
      Reply (.Publish p) (.PubRec { pkid := p.pkid, reason, properties := none })
  | pubrel {p : PubRec} {reason : PubRelReason} :
      Reply (.PubRec p) (.PubRel { pkid := p.pkid, reason, properties := none })
  | pubcomp {p : PubRel} {reason : PubCompReason} :
      Reply (.PubRel p) (.PubComp { pkid := p.pkid, reason, properties := none })
  | suback {p : Subscribe} {codes : List SubscribeReasonCode} : codes.length = p.filters.length →
      Reply (.Subscribe p) (.SubAck { pkid := p.pkid, return_codes := codes, properties := none })
  | unsuback {p : Unsubscribe} {codes : List UnsubAckReason} : codes.length = p.filters.length →
      Reply (.Unsubscribe p) (.UnsubAck { pkid := p.pkid, reasons := codes, properties := none })
  | pingresp : Reply .PingReq .PingResp

/-- Packets of the QoS 2 exchange after the PUBLISH, which may be as short as their answers. -/
def IsRecOrRel : Packet → Prop
  | .PubRec _ | .PubRel _ => True
  | _ => False

instance : DecidablePred IsRecOrRel := fun p => by
  cases p <;> unfold IsRecOrRel <;> infer_instance

/-- UNSUBSCRIBE without any topic filter, which MQTT 5 forbids. -/
def NoFilters : Packet → Prop
  | .Unsubscribe p => p.filters = []
  | _ => False

/-- Answers to some of the packets of a sequence, in their order. -/
inductive Answers : List Packet → List Packet → Prop
  | nil : Answers [] []
  | answered {p q : Packet} {ps qs : List Packet} :
      Reply p q → Answers ps qs → Answers (p :: ps) (q :: qs)
  | unanswered {p : Packet} {ps qs : List Packet} : Answers ps qs → Answers (p :: ps) qs

end Spec
