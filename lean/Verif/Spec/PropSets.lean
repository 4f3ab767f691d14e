import Verif.Spec.Wire
/-
Which properties each packet carries (MQTT 5, table 2-4), and how a property record corresponds
to a list of properties. `toList` lists the present properties in the order in which this
library sends them (MQTT 5 leaves the order free). `ofList` is the meaning of an arbitrary list:
the last value of each single-valued property, all values of the repeatable ones.
-/
namespace Spec

open Mqtt (Bytes)

/-! ### ConnectProperties, MQTT 5 section 3.1.2.11 -/

/-- Property identifiers allowed here. -/
def ConnectProperties.allowed : List UInt8 :=
  [0x11, 0x15, 0x16, 0x17, 0x19, 0x21, 0x22, 0x26, 0x27]

/-- The properties present in the record. -/
def ConnectProperties.toList (p : Mqtt.ConnectProperties) : List Property :=
  one .sessionExpiryInterval p.session_expiry_interval
  ++ one .receiveMaximum p.receive_maximum
  ++ one .maximumPacketSize p.max_packet_size
  ++ one .topicAliasMaximum p.topic_alias_max
  ++ one .requestResponseInformation p.request_response_info
  ++ one .requestProblemInformation p.request_problem_info
  ++ users p.user_properties
  ++ one .authenticationMethod p.authentication_method
  ++ one .authenticationData p.authentication_data

/-- The record a property list stands for. -/
def ConnectProperties.ofList (l : List Property) : Mqtt.ConnectProperties :=
  { session_expiry_interval := last Property.sessionExpiryInterval? l,
    receive_maximum := last Property.receiveMaximum? l,
    max_packet_size := last Property.maximumPacketSize? l,
    topic_alias_max := last Property.topicAliasMaximum? l,
    request_response_info := last Property.requestResponseInformation? l,
    request_problem_info := last Property.requestProblemInformation? l,
    user_properties := all Property.userProperty? l,
    authentication_method := last Property.authenticationMethod? l,
    authentication_data := last Property.authenticationData? l }

/-! ### LastWillProperties, MQTT 5 section 3.1.3.2 -/

/-- Property identifiers allowed here. -/
def LastWillProperties.allowed : List UInt8 :=
  [0x01, 0x02, 0x03, 0x08, 0x09, 0x18, 0x26]

/-- The properties present in the record. -/
def LastWillProperties.toList (p : Mqtt.LastWillProperties) : List Property :=
  one .willDelayInterval p.delay_interval
  ++ one .payloadFormatIndicator p.payload_format_indicator
  ++ one .messageExpiryInterval p.message_expiry_interval
  ++ one .contentType p.content_type
  ++ one .responseTopic p.response_topic
  ++ one .correlationData p.correlation_data
  ++ users p.user_properties

/-- The record a property list stands for. -/
def LastWillProperties.ofList (l : List Property) : Mqtt.LastWillProperties :=
  { delay_interval := last Property.willDelayInterval? l,
    payload_format_indicator := last Property.payloadFormatIndicator? l,
    message_expiry_interval := last Property.messageExpiryInterval? l,
    content_type := last Property.contentType? l,
    response_topic := last Property.responseTopic? l,
    correlation_data := last Property.correlationData? l,
    user_properties := all Property.userProperty? l }

/-! ### ConnAckProperties, MQTT 5 section 3.2.2.3 -/

/-- Property identifiers allowed here. -/
def ConnAckProperties.allowed : List UInt8 :=
  [0x11, 0x12, 0x13, 0x15, 0x16, 0x1A, 0x1C, 0x1F, 0x21, 0x22, 0x24, 0x25, 0x26, 0x27, 0x28, 0x29, 0x2A]

/-- The properties present in the record. -/
def ConnAckProperties.toList (p : Mqtt.ConnAckProperties) : List Property :=
  one .sessionExpiryInterval p.session_expiry_interval
  ++ one .receiveMaximum p.receive_max
  ++ one .maximumQos p.max_qos
  ++ one .retainAvailable p.retain_available
  ++ one .maximumPacketSize p.max_packet_size
  ++ one .assignedClientIdentifier p.assigned_client_identifier
  ++ one .topicAliasMaximum p.topic_alias_max
  ++ one .reasonString p.reason_string
  ++ users p.user_properties
  ++ one .wildcardSubscriptionAvailable p.wildcard_subscription_available
  ++ one .subscriptionIdentifierAvailable p.subscription_identifiers_available
  ++ one .sharedSubscriptionAvailable p.shared_subscription_available
  ++ one .serverKeepAlive p.server_keep_alive
  ++ one .responseInformation p.response_information
  ++ one .serverReference p.server_reference
  ++ one .authenticationMethod p.authentication_method
  ++ one .authenticationData p.authentication_data

/-- The record a property list stands for. -/
def ConnAckProperties.ofList (l : List Property) : Mqtt.ConnAckProperties :=
  { session_expiry_interval := last Property.sessionExpiryInterval? l,
    receive_max := last Property.receiveMaximum? l,
    max_qos := last Property.maximumQos? l,
    retain_available := last Property.retainAvailable? l,
    max_packet_size := last Property.maximumPacketSize? l,
    assigned_client_identifier := last Property.assignedClientIdentifier? l,
    topic_alias_max := last Property.topicAliasMaximum? l,
    reason_string := last Property.reasonString? l,
    user_properties := all Property.userProperty? l,
    wildcard_subscription_available := last Property.wildcardSubscriptionAvailable? l,
    subscription_identifiers_available := last Property.subscriptionIdentifierAvailable? l,
    shared_subscription_available := last Property.sharedSubscriptionAvailable? l,
    server_keep_alive := last Property.serverKeepAlive? l,
    response_information := last Property.responseInformation? l,
    server_reference := last Property.serverReference? l,
    authentication_method := last Property.authenticationMethod? l,
    authentication_data := last Property.authenticationData? l }

/-! ### PublishProperties, MQTT 5 section 3.3.2.3 -/

/-- Property identifiers allowed here. -/
def PublishProperties.allowed : List UInt8 :=
  [0x01, 0x02, 0x03, 0x08, 0x09, 0x0B, 0x23, 0x26]

/-- The properties present in the record. -/
def PublishProperties.toList (p : Mqtt.PublishProperties) : List Property :=
  one .payloadFormatIndicator p.payload_format_indicator
  ++ one .messageExpiryInterval p.message_expiry_interval
  ++ one .topicAlias p.topic_alias
  ++ one .responseTopic p.response_topic
  ++ one .correlationData p.correlation_data
  ++ users p.user_properties
  ++ p.subscription_identifiers.map .subscriptionIdentifier
  ++ one .contentType p.content_type

/-- The record a property list stands for. -/
def PublishProperties.ofList (l : List Property) : Mqtt.PublishProperties :=
  { payload_format_indicator := last Property.payloadFormatIndicator? l,
    message_expiry_interval := last Property.messageExpiryInterval? l,
    topic_alias := last Property.topicAlias? l,
    response_topic := last Property.responseTopic? l,
    correlation_data := last Property.correlationData? l,
    user_properties := all Property.userProperty? l,
    subscription_identifiers := all Property.subscriptionIdentifier? l,
    content_type := last Property.contentType? l }

/-! ### PubAckProperties, MQTT 5 section 3.4.2.2 -/

/-- Property identifiers allowed here. -/
def PubAckProperties.allowed : List UInt8 :=
  [0x1F, 0x26]

/-- The properties present in the record. -/
def PubAckProperties.toList (p : Mqtt.PubAckProperties) : List Property :=
  one .reasonString p.reason_string
  ++ users p.user_properties

/-- The record a property list stands for. -/
def PubAckProperties.ofList (l : List Property) : Mqtt.PubAckProperties :=
  { reason_string := last Property.reasonString? l,
    user_properties := all Property.userProperty? l }

/-! ### PubRecProperties, MQTT 5 section 3.5.2.2 -/

/-- Property identifiers allowed here. -/
def PubRecProperties.allowed : List UInt8 :=
  [0x1F, 0x26]

/-- The properties present in the record. -/
def PubRecProperties.toList (p : Mqtt.PubRecProperties) : List Property :=
  one .reasonString p.reason_string
  ++ users p.user_properties

/-- The record a property list stands for. -/
def PubRecProperties.ofList (l : List Property) : Mqtt.PubRecProperties :=
  { reason_string := last Property.reasonString? l,
    user_properties := all Property.userProperty? l }

/-! ### PubRelProperties, MQTT 5 section 3.6.2.2 -/

/-- Property identifiers allowed here. -/
def PubRelProperties.allowed : List UInt8 :=
  [0x1F, 0x26]

/-- The properties present in the record. -/
def PubRelProperties.toList (p : Mqtt.PubRelProperties) : List Property :=
  one .reasonString p.reason_string
  ++ users p.user_properties

/-- The record a property list stands for. -/
def PubRelProperties.ofList (l : List Property) : Mqtt.PubRelProperties :=
  { reason_string := last Property.reasonString? l,
    user_properties := all Property.userProperty? l }

/-! ### PubCompProperties, MQTT 5 section 3.7.2.2 -/

/-- Property identifiers allowed here. -/
def PubCompProperties.allowed : List UInt8 :=
  [0x1F, 0x26]

/-- The properties present in the record. -/
def PubCompProperties.toList (p : Mqtt.PubCompProperties) : List Property :=
  one .reasonString p.reason_string
  ++ users p.user_properties

/-- The record a property list stands for. -/
def PubCompProperties.ofList (l : List Property) : Mqtt.PubCompProperties :=
  { reason_string := last Property.reasonString? l,
    user_properties := all Property.userProperty? l }

/-! ### SubscribeProperties, MQTT 5 section 3.8.2.1 -/

/-- Property identifiers allowed here. -/
def SubscribeProperties.allowed : List UInt8 :=
  [0x0B, 0x26]

/-- The properties present in the record. -/
def SubscribeProperties.toList (p : Mqtt.SubscribeProperties) : List Property :=
  one .subscriptionIdentifier p.id
  ++ users p.user_properties

/-- The record a property list stands for. -/
def SubscribeProperties.ofList (l : List Property) : Mqtt.SubscribeProperties :=
  { id := last Property.subscriptionIdentifier? l,
    user_properties := all Property.userProperty? l }

/-! ### SubAckProperties, MQTT 5 section 3.9.2.1 -/

/-- Property identifiers allowed here. -/
def SubAckProperties.allowed : List UInt8 :=
  [0x1F, 0x26]

/-- The properties present in the record. -/
def SubAckProperties.toList (p : Mqtt.SubAckProperties) : List Property :=
  one .reasonString p.reason_string
  ++ users p.user_properties

/-- The record a property list stands for. -/
def SubAckProperties.ofList (l : List Property) : Mqtt.SubAckProperties :=
  { reason_string := last Property.reasonString? l,
    user_properties := all Property.userProperty? l }

/-! ### UnsubscribeProperties, MQTT 5 section 3.10.2.1 -/

/-- Property identifiers allowed here. -/
def UnsubscribeProperties.allowed : List UInt8 :=
  [0x26]

/-- The properties present in the record. -/
def UnsubscribeProperties.toList (p : Mqtt.UnsubscribeProperties) : List Property :=
  users p.user_properties

/-- The record a property list stands for. -/
def UnsubscribeProperties.ofList (l : List Property) : Mqtt.UnsubscribeProperties :=
  { user_properties := all Property.userProperty? l }

/-! ### UnsubAckProperties, MQTT 5 section 3.11.2.1 -/

/-- Property identifiers allowed here. -/
def UnsubAckProperties.allowed : List UInt8 :=
  [0x1F, 0x26]

/-- The properties present in the record. -/
def UnsubAckProperties.toList (p : Mqtt.UnsubAckProperties) : List Property :=
  one .reasonString p.reason_string
  ++ users p.user_properties

/-- The record a property list stands for. -/
def UnsubAckProperties.ofList (l : List Property) : Mqtt.UnsubAckProperties :=
  { reason_string := last Property.reasonString? l,
    user_properties := all Property.userProperty? l }

/-! ### DisconnectProperties, MQTT 5 section 3.14.2.2 -/

/-- Property identifiers allowed here. -/
def DisconnectProperties.allowed : List UInt8 :=
  [0x11, 0x1C, 0x1F, 0x26]

/-- The properties present in the record. -/
def DisconnectProperties.toList (p : Mqtt.DisconnectProperties) : List Property :=
  one .sessionExpiryInterval p.session_expiry_interval
  ++ one .reasonString p.reason_string
  ++ users p.user_properties
  ++ one .serverReference p.server_reference

/-- The record a property list stands for. -/
def DisconnectProperties.ofList (l : List Property) : Mqtt.DisconnectProperties :=
  { session_expiry_interval := last Property.sessionExpiryInterval? l,
    reason_string := last Property.reasonString? l,
    user_properties := all Property.userProperty? l,
    server_reference := last Property.serverReference? l }

end Spec
