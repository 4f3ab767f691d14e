import Verif.Model.Packet
/-
Model of the remaining constructors and `Default` implementations. `Into<MqttString>` and
`Into<Bytes>` conversions of the arguments are not modelled: the arguments are the converted values.
`#[derive(Default)]` is modelled by its documented meaning: every field takes its type's default
(0, false, empty, `None`).
-/
namespace Mqtt

/-- src/lib.rs:101-124 `mqtt_string_new`; in every feature variant the bytes are those of the
argument. -/
def mqtt_string_new (s : Bytes) : MqttString := s

/-- src/lib.rs:626-630 `<QoS as Default>::default`. -/
def QoS.default : QoS := .AtMostOnce

/-- src/subscribe.rs:197-201 `<RetainForwardRule as Default>::default`. -/
def RetainForwardRule.default : RetainForwardRule := .OnEverySubscribe

/-- src/connect.rs:350-354 `<ConnectProperties as Default>::default`, which is
`ConnectProperties::new` (160-172). -/
def ConnectProperties.new : ConnectProperties :=
  { session_expiry_interval := none, receive_maximum := none, max_packet_size := none,
    topic_alias_max := none, request_response_info := none, request_problem_info := none,
    user_properties := [], authentication_method := none, authentication_data := none }

/-- src/connack.rs:132-134 `ConnAckProperties::new`, derived default (109). -/
def ConnAckProperties.new : ConnAckProperties :=
  { session_expiry_interval := none, receive_max := none, max_qos := none, retain_available := none,
    max_packet_size := none, assigned_client_identifier := none, topic_alias_max := none,
    reason_string := none, user_properties := [], wildcard_subscription_available := none,
    subscription_identifiers_available := none, shared_subscription_available := none,
    server_keep_alive := none, response_information := none, server_reference := none,
    authentication_method := none, authentication_data := none }

/-- src/publish.rs:130, derived default. -/
def PublishProperties.default : PublishProperties :=
  { payload_format_indicator := none, message_expiry_interval := none, topic_alias := none,
    response_topic := none, correlation_data := none, user_properties := [],
    subscription_identifiers := [], content_type := none }

/-- src/connect.rs:596-601 `Login::new`. -/
def Login.new (u p : MqttString) : Login := { username := u, password := p }

/-- src/publish.rs:11, derived default. -/
def Publish.default : Publish :=
  { dup := false, qos := .default, retain := false, topic := [], pkid := 0, payload := [],
    properties := none }

/-- src/subscribe.rs:10, derived default. -/
def Subscribe.default : Subscribe := { pkid := 0, filters := [], properties := none }

/-- src/subscribe.rs:19-25 `Subscribe::new`. -/
def Subscribe.new (filter : Filter) (properties : Option SubscribeProperties) : Subscribe :=
  { Subscribe.default with filters := [filter], properties := properties }

/-- src/subscribe.rs:108, derived default. -/
def Filter.default : Filter :=
  { path := [], qos := .default, nolocal := false, preserve_retain := false,
    retain_forward_rule := .default }

/-- src/unsubscribe.rs:10, derived default. -/
def Unsubscribe.default : Unsubscribe := { pkid := 0, filters := [], properties := none }

end Mqtt
