import Verif.Spec.Packet
/-
Vocabulary for C78: publishing a client's will (MQTT 5, 3.1.2.5 and 3.1.3.2).
-/
namespace Spec

open Mqtt (Bytes Publish PublishProperties LastWill LastWillProperties)

/-- The properties of a will that its message carries: all but the delay. -/
def willProps (q : LastWillProperties) : PublishProperties := {
  payload_format_indicator := q.payload_format_indicator
  message_expiry_interval := q.message_expiry_interval
  topic_alias := none
  response_topic := q.response_topic
  correlation_data := q.correlation_data
  user_properties := q.user_properties
  subscription_identifiers := []
  content_type := q.content_type }

/-- No property at all. -/
def noPublishProps : PublishProperties := {
  payload_format_indicator := none, message_expiry_interval := none, topic_alias := none
  response_topic := none, correlation_data := none, user_properties := []
  subscription_identifiers := [], content_type := none }

/-- The message the server publishes when the client is lost; a will that has only a delay gives a
message without properties. -/
def willMessage (w : LastWill) (pkid : UInt16) : Publish := {
  dup := false, qos := w.qos, retain := w.retain, topic := w.topic, pkid := pkid
  payload := w.message
  properties := match w.properties with
    | none => none
    | some q => if willProps q = noPublishProps then none else some (willProps q) }

end Spec
