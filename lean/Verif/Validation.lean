import Verif.Model.New
import Verif.Model.Packet
/-
Validation of the model against the unit tests in /repo: every `#[test]` of the crate, and the
benchmark, replayed on the model. The project asserts that these tests pass on the Rust code, so a
model on which one of them fails would be wrong. These are tests of the model, not proofs of
properties.
-/
namespace Validation

open Mqtt

/-- src/lib.rs:702 `USER_PROP_KEY`. -/
def key : Bytes := [112, 114, 111, 112, 101, 114, 116, 121]

/-- src/lib.rs:704 `USER_PROP_VAL`. -/
def val : Bytes := [97, 32, 118, 97, 108, 117, 101, 32, 116, 104, 97, 116, 115, 32, 114, 101, 97,
    108, 108, 121, 32, 108, 111, 110, 103, 46, 46, 46, 46, 46, 46, 46, 46, 46, 46, 46, 46, 46, 46,
    46, 46, 46, 46, 46, 46, 46, 46, 46, 46, 46, 46, 46, 46, 46, 46, 46, 46, 46, 46, 46, 46, 46,
    46, 46, 46, 46, 46, 46, 46, 46, 46, 46, 46, 46, 46, 46, 46, 46, 46, 46, 46, 46, 46, 46, 46,
    46, 46, 46, 46, 46, 46, 46, 46, 46, 46, 46, 46, 46, 46, 46, 46, 46, 46, 46, 46, 46, 46, 46,
    46, 46, 46, 46, 46, 46, 46, 46, 46, 46, 46, 46, 46, 46, 46, 46, 46, 46, 46, 46, 46, 46, 46,
    46, 46]

/-- src/lib.rs:707-716 `read_write_packets`, one packet: written into an empty buffer, read back
equal, and the buffer is empty afterwards. -/
def readWrite (p : Packet) : Bool :=
  match p.write [] with
  | (.ok _, b) => Packet.read .utf8 none b = (.ok p, [])
  | _ => false

/-- The `length_calculation` tests: `size()`, the result of `write` and the number of bytes in the
buffer agree. -/
def lengths (size : Nat) (p : Packet) : Bool :=
  match p.write [] with
  | (.ok n, b) => n = b.length && size = b.length
  | _ => false

def connack : ConnAck := {
  session_present := false, code := .Success,
  properties := some {
          session_expiry_interval := none, receive_max := none, max_qos := none,
          retain_available := none, max_packet_size := none, assigned_client_identifier := none,
          topic_alias_max := none, reason_string := none, user_properties := [(key, val)],
          wildcard_subscription_available := none, subscription_identifiers_available := none,
          shared_subscription_available := none, server_keep_alive := none,
          response_information := none, server_reference := none, authentication_method := none,
          authentication_data := none } }

/-- src/connack.rs, `length_calculation`. -/
example : lengths connack.size (.ConnAck connack) = true := by
  decide +kernel

/-- src/connack.rs, `test_write_read`. -/
example : ([
    .ConnAck { session_present := true, code := .Success, properties := some { ConnAckProperties.new with assigned_client_identifier := some [99, 108, 105, 101, 110, 116] } },
    .ConnAck { session_present := false, code := .Success, properties := none },
    .ConnAck { session_present := true, code := .BadAuthenticationMethod, properties := none },
    .ConnAck { session_present := true, code := .Success, properties := some {
          session_expiry_interval := some 10, receive_max := some 20, max_qos := some 1,
          retain_available := some 1, max_packet_size := some 30,
          assigned_client_identifier := some [99, 108, 105, 101, 110, 116],
          topic_alias_max := some 40, reason_string := some [114, 101, 97, 115, 111, 110],
          user_properties := [(key, val)], wildcard_subscription_available := some 1,
          subscription_identifiers_available := some 1, shared_subscription_available := some 1,
          server_keep_alive := some 50, response_information := some [105, 110, 102, 111],
          server_reference := some [114, 101, 102],
          authentication_method := some [109, 101, 116, 104, 111, 100],
          authentication_data := some [1, 2, 3] } }] : List Packet).all readWrite = true := by
  decide +kernel

/-- src/connect.rs, `length_calculation` (CONNECT has no public `size`). -/
example : (match (Packet.Connect { keep_alive := 5, client_id := [99, 108, 105, 101, 110, 116], clean_start := true, properties := some { ConnectProperties.new with user_properties := [(key, val)] } } none none).write [] with
    | (.ok n, b) => n == b.length
    | _ => false) = true := by
  decide +kernel

/-- src/connect.rs, `test_write_read`. -/
example : ([
    .Connect { keep_alive := 5, client_id := [99, 108, 105, 101, 110, 116], clean_start := true, properties := none } none none,
    .Connect { keep_alive := 5, client_id := [99, 108, 105, 101, 110, 116], clean_start := true, properties := some {
          session_expiry_interval := some 5, receive_maximum := some 5, max_packet_size := some 5,
          topic_alias_max := some 5, request_response_info := some 5,
          request_problem_info := some 5, user_properties := [(key, val)],
          authentication_method := some [109, 101, 116, 104, 111, 100],
          authentication_data := some [100, 97, 116, 97] } }
      (some { topic := [116, 111, 112, 105, 99], message := [109, 101, 115, 115, 97, 103, 101], qos := .AtLeastOnce, retain := true, properties := some {
          delay_interval := some 5, payload_format_indicator := some 5,
          message_expiry_interval := some 5, content_type := some [116, 121, 112, 101],
          response_topic := some [116, 111, 112, 105, 99],
          correlation_data := some [100, 97, 116, 97], user_properties := [(key, val)] } })
      (some { username := [117, 115, 101, 114, 110, 97, 109, 101], password := [112, 97, 115, 115, 119, 111, 114, 100] })] : List Packet).all readWrite = true := by
  decide +kernel

/-- src/disconnect.rs, `sample2`. -/
def sample2 : Disconnect := { reason_code := .UnspecifiedError, properties := some {
          session_expiry_interval := some 1234, reason_string := some [116, 101, 115, 116],
          user_properties := [([116, 101, 115, 116], [116, 101, 115, 116])],
          server_reference := some [116, 101, 115, 116] } }

/-- src/disconnect.rs, `sample_bytes2`. -/
def sampleBytes2 : Bytes := [224, 34, 128, 32, 17, 0, 0, 4, 210, 31, 0, 4, 116, 101, 115, 116, 38,
    0, 4, 116, 101, 115, 116, 0, 4, 116, 101, 115, 116, 28, 0, 4, 116, 101, 115, 116]

/-- The typed reader on a whole frame, as the two parsing tests use it. -/
def parseDisconnect (b : Bytes) : Out Disconnect :=
  match parse_fixed_header b with
  | .ok fh => (Disconnect.read .utf8 fh (b.take fh.frame_length)).1
  | .err e => .err e
  | .panic => .panic
  | .diverge => .diverge

/-- src/disconnect.rs, `disconnect1_parsing_works`. -/
example : parseDisconnect [0xE0, 0x00] = .ok (Disconnect.new .NormalDisconnection) := by
  decide +kernel

/-- src/disconnect.rs, `disconnect1_encoding_works`. -/
example : ((Disconnect.new .NormalDisconnection).write []).2 = [0xE0, 0x00] := by
  decide +kernel

/-- src/disconnect.rs, `disconnect2_parsing_works`. -/
example : parseDisconnect sampleBytes2 = .ok sample2 := by
  decide +kernel

/-- src/disconnect.rs, `disconnect2_encoding_works`. -/
example : (sample2.write []).2 = sampleBytes2 := by
  decide +kernel

def disconn : Disconnect := {
  Disconnect.new .NormalDisconnection with
  properties := some {
          session_expiry_interval := none, reason_string := none, user_properties := [(key, val)],
          server_reference := none } }

/-- src/disconnect.rs, `length_calculation`. -/
example : lengths disconn.size (.Disconnect disconn) = true := by
  decide +kernel

/-- src/disconnect.rs, `test_write_read`. -/
example : ([
    .Disconnect (Disconnect.new .NormalDisconnection),
    .Disconnect sample2] : List Packet).all readWrite = true := by
  decide +kernel

/-- src/ping.rs, `test_write_read`. -/
example : ([
    .PingReq,
    .PingResp] : List Packet).all readWrite = true := by
  decide +kernel

def puback : PubAck :=
  PubAck.new 1 (some { reason_string := none, user_properties := [(key, val)] })

/-- src/puback.rs, `length_calculation`. -/
example : lengths puback.size (.PubAck puback) = true := by
  decide +kernel

/-- src/puback.rs, `test_write_read`. -/
example : ([
    .PubAck { pkid := 42, reason := .Success, properties := none },
    .PubAck { pkid := 42, reason := .Success, properties := some { reason_string := some [104, 101, 108, 108, 111], user_properties := [(key, val)] } }] : List Packet).all readWrite = true := by
  decide +kernel

def pubrec : PubRec :=
  PubRec.new 1 (some { reason_string := none, user_properties := [(key, val)] })

/-- src/pubrec.rs, `length_calculation`. -/
example : lengths pubrec.size (.PubRec pubrec) = true := by
  decide +kernel

/-- src/pubrec.rs, `test_write_read`. -/
example : ([
    .PubRec { pkid := 42, reason := .Success, properties := none },
    .PubRec { pkid := 42, reason := .Success, properties := some { reason_string := none, user_properties := [(key, val)] } }] : List Packet).all readWrite = true := by
  decide +kernel

def pubrel : PubRel :=
  PubRel.new 1 (some { reason_string := none, user_properties := [(key, val)] })

/-- src/pubrel.rs, `length_calculation`. -/
example : lengths pubrel.size (.PubRel pubrel) = true := by
  decide +kernel

/-- src/pubrel.rs, `test_write_read`. -/
example : ([
    .PubRel { pkid := 42, reason := .Success, properties := none },
    .PubRel { pkid := 42, reason := .Success, properties := some { reason_string := some [104, 101, 108, 108, 111], user_properties := [(key, val)] } }] : List Packet).all readWrite = true := by
  decide +kernel

def pubcomp : PubComp :=
  PubComp.new 1 (some { reason_string := none, user_properties := [(key, val)] })

/-- src/pubcomp.rs, `length_calculation`. -/
example : lengths pubcomp.size (.PubComp pubcomp) = true := by
  decide +kernel

/-- src/pubcomp.rs, `test_write_read`. -/
example : ([
    .PubComp { pkid := 42, reason := .Success, properties := none },
    .PubComp { pkid := 42, reason := .Success, properties := some { reason_string := some [104, 101, 108, 108, 111], user_properties := [(key, val)] } }] : List Packet).all readWrite = true := by
  decide +kernel

def publish : Publish :=
  Publish.new [104, 101, 108, 108, 111, 47, 119, 111, 114, 108, 100] .AtMostOnce [1, 1, 1, 1, 1,
      1, 1, 1, 1, 1]
    (some {
          payload_format_indicator := none, message_expiry_interval := none, topic_alias := none,
          response_topic := none, correlation_data := none, user_properties := [(key, val)],
          subscription_identifiers := [1], content_type := none })

/-- src/publish.rs, `length_calculation`. -/
example : lengths publish.size (.Publish publish) = true := by
  decide +kernel

/-- src/publish.rs, `test_write_read` (the first packet occurs twice there). -/
example : ([
    .Publish (Publish.new [104, 101, 108, 108, 111, 47, 119, 111, 114, 108, 100] .AtMostOnce [1,
        1, 1, 1, 1, 1, 1, 1, 1, 1] none),
    .Publish { dup := true, qos := .ExactlyOnce, retain := true, topic := [104, 101, 108, 108, 111, 47, 119, 111, 114, 108, 100], pkid := 12, payload := [1, 1, 1, 1, 1, 1, 1, 1, 1, 1], properties := none },
    .Publish { dup := true, qos := .AtLeastOnce, retain := true, topic := [104, 101, 108, 108, 111, 47, 119, 111, 114, 108, 100], pkid := 12, payload := [1, 1, 1, 1, 1, 1, 1, 1, 1, 1], properties := none },
    .Publish (Publish.new [104, 101, 108, 108, 111, 47, 119, 111, 114, 108, 100] .AtMostOnce [1,
        1, 1, 1, 1, 1, 1, 1, 1, 1] (some {
          payload_format_indicator := some 1, message_expiry_interval := some 100,
          topic_alias := some 10,
          response_topic := some [114, 101, 115, 112, 111, 110, 115, 101, 47, 116, 111, 112, 105,
              99],
          correlation_data := some [1, 2, 3], user_properties := [(key, val)],
          subscription_identifiers := [1],
          content_type := some [99, 111, 110, 116, 101, 110, 116, 47, 116, 121, 112, 101] }))] :
              List Packet).all readWrite = true := by
  decide +kernel

def suback : SubAck := {
  pkid := 1, return_codes := [.Success .ExactlyOnce],
  properties := some { reason_string := none, user_properties := [(key, val)] } }

/-- src/suback.rs, `length_calculation`. -/
example : lengths suback.size (.SubAck suback) = true := by
  decide +kernel

/-- src/suback.rs, `test_write_read`. -/
example : ([
    .SubAck { pkid := 42, return_codes := [.Success .AtMostOnce], properties := none },
    .SubAck { pkid := 42, return_codes := [.Success .AtMostOnce], properties := some { reason_string := some [116, 101, 115, 116], user_properties := [(key, val), ([112, 114, 111, 112, 101, 114, 116, 121, 50], [118, 97, 108, 117, 101, 50])] } }] : List Packet).all readWrite = true := by
  decide +kernel

def subscribe : Subscribe :=
  Subscribe.new (Filter.new [104, 101, 108, 108, 111, 47, 119, 111, 114, 108, 100] .AtMostOnce) (some { id := none, user_properties := [(key, val)] })

/-- src/subscribe.rs, `length_calculation`. -/
example : lengths subscribe.size (.Subscribe subscribe) = true := by
  decide +kernel

/-- src/subscribe.rs, `test_write_read`. -/
example : ([
    .Subscribe { pkid := 0, filters := [{ path := [104, 101, 108, 108, 111, 47, 119, 111, 114, 108, 100], qos := .AtLeastOnce, nolocal := false, preserve_retain := false, retain_forward_rule := .OnEverySubscribe }], properties := none },
    .Subscribe { pkid := 0, filters := [{ path := [104, 101, 108, 108, 111, 47, 119, 111, 114, 108, 100], qos := .ExactlyOnce, nolocal := false, preserve_retain := false, retain_forward_rule := .OnEverySubscribe }], properties := none },
    .Subscribe { pkid := 42, filters := [{ path := [104, 101, 108, 108, 111, 47, 119, 111, 114, 108, 100], qos := .AtMostOnce, nolocal := false, preserve_retain := false, retain_forward_rule := .OnEverySubscribe }], properties := none },
    .Subscribe { pkid := 42, filters := [{ path := [104, 101, 108, 108, 111, 47, 119, 111, 114, 108, 100], qos := .AtMostOnce, nolocal := false, preserve_retain := false, retain_forward_rule := .OnEverySubscribe }], properties := some { id := none, user_properties := [(key, val)] } },
    .Subscribe { pkid := 42, filters := [{ path := [104, 101, 108, 108, 111, 47, 119, 111, 114, 108, 100], qos := .AtMostOnce, nolocal := true, preserve_retain := false, retain_forward_rule := .OnEverySubscribe }, { path := [104, 101, 108, 108, 111, 47, 119, 111, 114, 108, 100], qos := .AtMostOnce, nolocal := false, preserve_retain := true, retain_forward_rule := .OnEverySubscribe }], properties := some { id := some 121212, user_properties := [(key, val)] } }] : List Packet).all readWrite = true := by
  decide +kernel

def unsuback : UnsubAck := {
  pkid := 1, reasons := [.Success],
  properties := some { reason_string := none, user_properties := [(key, val)] } }

/-- src/unsuback.rs, `length_calculation`. -/
example : lengths unsuback.size (.UnsubAck unsuback) = true := by
  decide +kernel

/-- src/unsuback.rs, `test_write_read`. -/
example : ([
    .UnsubAck { pkid := 42, reasons := [.Success], properties := none },
    .UnsubAck { pkid := 42, reasons := [.Success], properties := some { reason_string := some [82, 101, 115, 97, 111, 110], user_properties := [(key, val)] } }] : List Packet).all readWrite = true := by
  decide +kernel

def unsubscribe : Unsubscribe := {
  pkid := 1, filters := [[104, 101, 108, 108, 111, 47, 119, 111, 114, 108, 100]],
  properties := some { user_properties := [(key, val)] } }

/-- src/unsubscribe.rs, `length_calculation`. -/
example : lengths unsubscribe.size (.Unsubscribe unsubscribe) = true := by
  decide +kernel

/-- src/unsubscribe.rs, `test_write_read`. -/
example : ([
    .Unsubscribe { pkid := 42, filters := [[104, 101, 108, 108, 111, 47, 119, 111, 114, 108, 100]], properties := none },
    .Unsubscribe { pkid := 42, filters := [[104, 101, 108, 108, 111, 47, 119, 111, 114, 108, 100]], properties := some { user_properties := [(key, val)] } }] : List Packet).all readWrite = true := by
  decide +kernel

def bench : Packet :=
  .Publish (Publish.new [104, 101, 108, 108, 111, 47, 119, 111, 114, 108, 100, 47, 116, 104, 105,
      115, 47, 105, 115, 47, 97, 47, 118, 101, 114, 121, 47, 108, 111, 110, 103, 47, 116, 111,
      112, 105, 99] .AtMostOnce (List.replicate 400 1)
    (some {
          payload_format_indicator := some 1, message_expiry_interval := some 100,
          topic_alias := some 10,
          response_topic := some [114, 101, 115, 112, 111, 110, 115, 101, 47, 116, 111, 112, 105,
              99],
          correlation_data := some [1, 2, 3],
          user_properties := [([107, 101, 121, 49], [118, 97, 108, 117, 101, 118, 97, 108, 117,
              101, 118, 97, 108, 117, 101, 118, 97, 108, 117, 101, 118, 97, 108, 117, 101, 118,
              97, 108, 117, 101, 118, 97, 108, 117, 101, 118, 97, 108, 117, 101])],
          subscription_identifiers := [1, 2, 3, 4, 5, 6, 7],
          content_type := some [99, 111, 110, 116, 101, 110, 116, 47, 116, 121, 112, 101] }))

/-- benches/benchmark.rs: written and read without error, as the two `unwrap`s require; the seven
identifiers do no harm here because a long property follows them (C03). -/
example : readWrite bench = true := by
  decide +kernel

/-- README.md, usage. -/
example : readWrite (.PubAck { pkid := 42, reason := .Success, properties := none }) = true := by
  decide +kernel

end Validation
