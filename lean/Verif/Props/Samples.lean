import Verif.Spec.Api
/-
Concrete packets and frames used in the examples beside the theorems.
-/
namespace Sample

open Mqtt

/-- A CONNECT with properties, will (with properties) and login. -/
def connect : Packet :=
  .Connect
    { keep_alive := 60, client_id := [0x63], clean_start := true,
      properties := some {
        session_expiry_interval := some 5, receive_maximum := none, max_packet_size := none,
        topic_alias_max := some 7, request_response_info := none, request_problem_info := none,
        user_properties := [([0x6B], [0x76])], authentication_method := none,
        authentication_data := none } }
    (some {
      topic := [0x74], message := [0x6D], qos := .AtLeastOnce, retain := true,
      properties := some {
        delay_interval := some 9, payload_format_indicator := none,
        message_expiry_interval := none, content_type := none, response_topic := none,
        correlation_data := some [1, 2], user_properties := [] } })
    (some { username := [0x75], password := [] })

def connectBytes : Bytes :=
  [0x10, 49,
   0, 4, 0x4D, 0x51, 0x54, 0x54, 5, 0xAE, 0, 60,
   15, 0x11, 0, 0, 0, 5, 0x22, 0, 7, 0x26, 0, 1, 0x6B, 0, 1, 0x76,
   0, 1, 0x63,
   10, 0x18, 0, 0, 0, 9, 0x09, 0, 2, 1, 2,
   0, 1, 0x74, 0, 1, 0x6D,
   0, 1, 0x75]

/-- A CONNACK with properties. -/
def connAck : Packet :=
  .ConnAck {
    session_present := true, code := .NotAuthorized,
    properties := some {
      session_expiry_interval := none, receive_max := some 10, max_qos := some 1,
      retain_available := none, max_packet_size := none, assigned_client_identifier := none,
      topic_alias_max := none, reason_string := some [0x72], user_properties := [],
      wildcard_subscription_available := none, subscription_identifiers_available := none,
      shared_subscription_available := none, server_keep_alive := some 30,
      response_information := none, server_reference := none, authentication_method := none,
      authentication_data := none } }

def connAckBytes : Bytes :=
  [0x20, 15, 1, 0x87, 12, 0x21, 0, 10, 0x24, 1, 0x1F, 0, 1, 0x72, 0x13, 0, 30]

/-- A QoS 1 PUBLISH with the given subscription identifiers. -/
def publish (ids : List Nat) : Packet :=
  .Publish {
    dup := false, qos := .AtLeastOnce, retain := true, topic := [0x61, 0x2F, 0x62], pkid := 42,
    payload := [0xDE, 0xAD],
    properties := some {
      payload_format_indicator := some 1, message_expiry_interval := none, topic_alias := none,
      response_topic := none, correlation_data := none,
      user_properties := [([0x6B], [0x76])], subscription_identifiers := ids,
      content_type := none } }

def publishBytes : Bytes :=
  [0x33, 21, 0, 3, 0x61, 0x2F, 0x62, 0, 42,
   11, 0x01, 1, 0x26, 0, 1, 0x6B, 0, 1, 0x76, 0x0B, 7, 0xDE, 0xAD]

/-- A PUBACK, PUBREC, PUBREL or PUBCOMP in long form. -/
def pubAck : Packet :=
  .PubAck { pkid := 42, reason := .QuotaExceeded,
            properties := some { reason_string := some [0x72], user_properties := [] } }
def pubRec : Packet :=
  .PubRec { pkid := 42, reason := .QuotaExceeded,
            properties := some { reason_string := some [0x72], user_properties := [] } }
def pubRel : Packet :=
  .PubRel { pkid := 42, reason := .PacketIdentifierNotFound,
            properties := some { reason_string := some [0x72], user_properties := [] } }
def pubComp : Packet :=
  .PubComp { pkid := 42, reason := .PacketIdentifierNotFound,
             properties := some { reason_string := some [0x72], user_properties := [] } }

def subscribe : Packet :=
  .Subscribe {
    pkid := 7,
    filters := [
      { path := [0x61], qos := .ExactlyOnce, nolocal := true, preserve_retain := false,
        retain_forward_rule := .Never },
      { path := [0x62, 0x2F, 0x23], qos := .AtMostOnce, nolocal := false, preserve_retain := true,
        retain_forward_rule := .OnNewSubscribe }],
    properties := some { id := some 200, user_properties := [] } }

def subscribeBytes : Bytes :=
  [0x82, 16, 0, 7, 3, 0x0B, 0xC8, 1, 0, 1, 0x61, 0x26, 0, 3, 0x62, 0x2F, 0x23, 0x18]

def unsubscribe : Packet :=
  .Unsubscribe { pkid := 7, filters := [[0x61], [0x62]],
                 properties := some { user_properties := [([0x6B], [])] } }

def subAck : Packet :=
  .SubAck { pkid := 7, return_codes := [.Success .ExactlyOnce, .Unspecified, .Success .AtMostOnce],
            properties := none }

def unsubAck : Packet :=
  .UnsubAck { pkid := 7, reasons := [.Success, .NoSubscriptionExisted],
              properties := some { reason_string := some [0x72], user_properties := [] } }

def disconnect : Packet :=
  .Disconnect { reason_code := .ServerBusy,
                properties := some {
                  session_expiry_interval := none, reason_string := some [0x72],
                  user_properties := [], server_reference := none } }

/-- A DISCONNECT with a reason and no property record. -/
def disconnectNone : Packet := .Disconnect { reason_code := .ServerBusy, properties := none }

/-- A DISCONNECT with a reason and an empty property record. -/
def disconnectEmpty : Packet :=
  .Disconnect { reason_code := .ServerBusy,
                properties := some {
                  session_expiry_interval := none, reason_string := none, user_properties := [],
                  server_reference := none } }

/-- A CONNACK with an MQTT 3 return code. -/
def legacy : Packet :=
  .ConnAck { session_present := false, code := .BadClientId, properties := none }

end Sample
