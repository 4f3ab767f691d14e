import Verif.Model.Basic
/-
The texts of errors (`#[error("...")]`, expanded by the crate `thiserror` to `impl Display`).
-/
namespace Mqtt

/-- src/lib.rs:643-699, the attributes `#[error("...")]`. `{0}` of a number is its decimal
representation, and so is `{max:?}`. The text of the standard library's `Utf8Error` in
`PayloadNotUtf8`, a variant that is never built, is left out. -/
def Err.display : Err → String
  | .InvalidConnectReturnCode n =>
    "Invalid return code received as response for connect = " ++ toString n.toNat
  | .InvalidReason n => "Invalid reason = " ++ toString n.toNat
  | .InvalidRemainingLength n => "Invalid remaining length = " ++ toString n
  | .InvalidProtocol => "Invalid protocol used"
  | .InvalidProtocolLevel _ => "Invalid protocol level"
  | .IncorrectPacketFormat => "Invalid packet format"
  | .InvalidPacketType n => "Invalid packet type = " ++ toString n.toNat
  | .InvalidRetainForwardRule n => "Invalid retain forward rule = " ++ toString n.toNat
  | .InvalidQoS n => "Invalid QoS level = " ++ toString n.toNat
  | .InvalidSubscribeReasonCode n => "Invalid subscribe reason code = " ++ toString n.toNat
  | .PacketIdZero => "Packet received has id Zero"
  | .EmptySubscription => "Empty Subscription"
  | .SubscriptionIdZero => "Subscription had id Zero"
  | .PayloadSizeIncorrect => "Payload size is incorrect"
  | .PayloadTooLong => "Payload is too long"
  | .BinaryDataTooLong => "Binary data is too long"
  | .PayloadSizeLimitExceeded pkt_size max =>
    "Max Payload size of " ++ toString max ++ " has been exceeded by packet of "
      ++ toString pkt_size ++ " bytes"
  | .PayloadRequired => "Payload is required"
  | .PayloadNotUtf8 => "Payload is required = "
  | .TopicNotUtf8 => "Topic not utf-8"
  | .BoundaryCrossed n => "Promised boundary crossed, contains " ++ toString n ++ " bytes"
  | .MalformedPacket => "Packet is malformed"
  | .MalformedRemainingLength => "Remaining length is malformed"
  | .InvalidPropertyType n => "Invalid property type = " ++ toString n.toNat
  | .InsufficientBytes n =>
    "Insufficient number of bytes to frame packet, " ++ toString n ++ " more bytes required"

end Mqtt
