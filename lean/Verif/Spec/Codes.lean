import Verif.Model.Packet
/-
Reason codes per packet, from the tables of MQTT 5 (sections cited).
-/
namespace Spec

open Mqtt

/-- MQTT 5, table 3-1 (CONNACK). The three MQTT 3 return codes of the Rust enum have no MQTT 5
reason code. -/
def connAckCode : ConnectReturnCode → Option UInt8
  | .Success => some 0x00
  | .UnspecifiedError => some 0x80
  | .MalformedPacket => some 0x81
  | .ProtocolError => some 0x82
  | .ImplementationSpecificError => some 0x83
  | .UnsupportedProtocolVersion => some 0x84
  | .ClientIdentifierNotValid => some 0x85
  | .BadUserNamePassword => some 0x86
  | .NotAuthorized => some 0x87
  | .ServerUnavailable => some 0x88
  | .ServerBusy => some 0x89
  | .Banned => some 0x8A
  | .BadAuthenticationMethod => some 0x8C
  | .TopicNameInvalid => some 0x90
  | .PacketTooLarge => some 0x95
  | .QuotaExceeded => some 0x97
  | .PayloadFormatInvalid => some 0x99
  | .RetainNotSupported => some 0x9A
  | .QoSNotSupported => some 0x9B
  | .UseAnotherServer => some 0x9C
  | .ServerMoved => some 0x9D
  | .ConnectionRateExceeded => some 0x9F
  | .RefusedProtocolVersion | .BadClientId | .ServiceUnavailable => none

/-- MQTT 5, table 3-4 (PUBACK). -/
def pubAckCode : PubAckReason → UInt8
  | .Success => 0x00
  | .NoMatchingSubscribers => 0x10
  | .UnspecifiedError => 0x80
  | .ImplementationSpecificError => 0x83
  | .NotAuthorized => 0x87
  | .TopicNameInvalid => 0x90
  | .PacketIdentifierInUse => 0x91
  | .QuotaExceeded => 0x97
  | .PayloadFormatInvalid => 0x99

/-- MQTT 5, table 3-5 (PUBREC). -/
def pubRecCode : PubRecReason → UInt8
  | .Success => 0x00
  | .NoMatchingSubscribers => 0x10
  | .UnspecifiedError => 0x80
  | .ImplementationSpecificError => 0x83
  | .NotAuthorized => 0x87
  | .TopicNameInvalid => 0x90
  | .PacketIdentifierInUse => 0x91
  | .QuotaExceeded => 0x97
  | .PayloadFormatInvalid => 0x99

/-- MQTT 5, table 3-6 (PUBREL). -/
def pubRelCode : PubRelReason → UInt8
  | .Success => 0x00
  | .PacketIdentifierNotFound => 0x92

/-- MQTT 5, table 3-7 (PUBCOMP). -/
def pubCompCode : PubCompReason → UInt8
  | .Success => 0x00
  | .PacketIdentifierNotFound => 0x92

/-- QoS levels as numbers, MQTT 5 section 4.3. -/
def qosNum : QoS → Nat
  | .AtMostOnce => 0
  | .AtLeastOnce => 1
  | .ExactlyOnce => 2

/-- MQTT 5, table 3-8 (SUBACK). -/
def subAckCode : SubscribeReasonCode → UInt8
  | .Success q => UInt8.ofNat (qosNum q)
  | .Unspecified => 0x80
  | .ImplementationSpecific => 0x83
  | .NotAuthorized => 0x87
  | .TopicFilterInvalid => 0x8F
  | .PkidInUse => 0x91
  | .QuotaExceeded => 0x97
  | .SharedSubscriptionsNotSupported => 0x9E
  | .SubscriptionIdNotSupported => 0xA1
  | .WildcardSubscriptionsNotSupported => 0xA2

/-- MQTT 5, table 3-9 (UNSUBACK). -/
def unsubAckCode : UnsubAckReason → UInt8
  | .Success => 0x00
  | .NoSubscriptionExisted => 0x11
  | .UnspecifiedError => 0x80
  | .ImplementationSpecificError => 0x83
  | .NotAuthorized => 0x87
  | .TopicFilterInvalid => 0x8F
  | .PacketIdentifierInUse => 0x91

/-- MQTT 5, table 3-10 (DISCONNECT). -/
def disconnectCode : DisconnectReasonCode → UInt8
  | .NormalDisconnection => 0x00
  | .DisconnectWithWillMessage => 0x04
  | .UnspecifiedError => 0x80
  | .MalformedPacket => 0x81
  | .ProtocolError => 0x82
  | .ImplementationSpecificError => 0x83
  | .NotAuthorized => 0x87
  | .ServerBusy => 0x89
  | .ServerShuttingDown => 0x8B
  | .KeepAliveTimeout => 0x8D
  | .SessionTakenOver => 0x8E
  | .TopicFilterInvalid => 0x8F
  | .TopicNameInvalid => 0x90
  | .ReceiveMaximumExceeded => 0x93
  | .TopicAliasInvalid => 0x94
  | .PacketTooLarge => 0x95
  | .MessageRateTooHigh => 0x96
  | .QuotaExceeded => 0x97
  | .AdministrativeAction => 0x98
  | .PayloadFormatInvalid => 0x99
  | .RetainNotSupported => 0x9A
  | .QoSNotSupported => 0x9B
  | .UseAnotherServer => 0x9C
  | .ServerMoved => 0x9D
  | .SharedSubscriptionNotSupported => 0x9E
  | .ConnectionRateExceeded => 0x9F
  | .MaximumConnectTime => 0xA0
  | .SubscriptionIdentifiersNotSupported => 0xA1
  | .WildcardSubscriptionsNotSupported => 0xA2

end Spec
