import Verif.Spec.Packet
/-
Vocabulary for C70: the copy of a message that a broker delivers to a subscriber.
-/
namespace Spec

open Mqtt (Bytes Publish PublishProperties QoS)

/-- The properties of the copy: those of the message, without the topic alias (an affair of the
publisher's connection), and with the identifiers of the subscriptions it is delivered for. -/
def copyProps (q : Option PublishProperties) (ids : List Nat) : PublishProperties :=
  match q with
  | some q => { q with topic_alias := none, subscription_identifiers := ids }
  | none => {
      payload_format_indicator := none, message_expiry_interval := none, topic_alias := none
      response_topic := none, correlation_data := none, user_properties := []
      subscription_identifiers := ids, content_type := none }

/-- The copy: the flags, the packet identifier, the topic (if an alias was resolved) and the
subscription identifiers are the broker's, all else is the publisher's. -/
def copy (p : Publish) (dup : Bool) (qos : QoS) (retain : Bool) (pkid : UInt16) (topic : Bytes)
    (ids : List Nat) : Publish := {
  dup := dup, qos := qos, retain := retain, topic := topic, pkid := pkid, payload := p.payload
  properties := some (copyProps p.properties ids) }

end Spec
