import Verif.Spec.Packet
/-
Vocabulary for C77: the response to a request (MQTT 5, 4.10).
-/
namespace Spec

open Mqtt (Bytes Publish PublishProperties QoS)

/-- The response: published to the response topic of the request, with its correlation data, if it
has any, and no other property. -/
def response (q : PublishProperties) (topic : Bytes) (qos : QoS) (pkid : UInt16) (payload : Bytes) :
    Publish := {
  dup := false, qos := qos, retain := false, topic := topic, pkid := pkid, payload := payload
  properties := q.correlation_data.map fun c => {
    payload_format_indicator := none, message_expiry_interval := none, topic_alias := none
    response_topic := none, correlation_data := some c, user_properties := []
    subscription_identifiers := [], content_type := none } }

end Spec
