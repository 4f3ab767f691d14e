{"id": "C01", "title": "CONNECT round trip", "statement": "Writing a Connect (with or without last will and login) into an empty buffer, when write returns Ok, yields bytes from which Packet::read returns the same connect, will and login and leaves the buffer empty; the only permitted differences are that an all-empty property set and an all-empty login come back as absent.", "quantifier": "every Connect/LastWill/Login value (all flag combinations, all property subsets, all string lengths), every string feature, every max_size that admits it", "why_tests_cant": "flag bits, property presence, variable length-of-length and string sizes multiply to an unbounded value space; the unit test checks two values", "anchors": ["src/connect.rs Connect::read, Connect::write, ConnectProperties, LastWill, LastWillProperties, Login", "src/lib.rs Packet::read, Packet::write"]}
{"id": "C02", "title": "CONNACK round trip", "statement": "Every ConnAck whose write returns Ok is read back as the same value (an all-empty property set comes back absent) and the buffer is left empty.", "quantifier": "every ConnAck value, all 17 optional properties in every combination", "why_tests_cant": "2^17 presence combinations times unbounded strings", "anchors": ["src/connack.rs ConnAck, ConnAckProperties, connect_return, connect_code", "src/lib.rs Packet::read, Packet::write"]}
{"id": "C03", "title": "PUBLISH round trip", "statement": "Every Publish whose write returns Ok is read back with the same dup, qos, retain, topic, payload, packet id (0 for QoS 0) and properties, whatever number of subscription identifiers it carries.", "quantifier": "every Publish value, any number of user properties and subscription identifiers, any payload bytes", "why_tests_cant": "the interaction of identifier count, identifier size and trailing properties with the reader's cursor cannot be sampled exhaustively; tests use at most one identifier (the benchmark seven)", "anchors": ["src/publish.rs Publish::read, Publish::write, PublishProperties::read", "src/lib.rs Packet::read, Packet::write"]}
{"id": "C04", "title": "PUBACK/PUBREC/PUBREL/PUBCOMP round trip", "statement": "Every acknowledgement whose write returns Ok is read back as the same packet id, reason and properties (all-empty properties come back absent), both in the 2-byte short form and in the long form.", "quantifier": "every packet id, reason and property value of the four acknowledgement types", "why_tests_cant": "unbounded property lists; the short/long form boundary interacts with reason and properties", "anchors": ["src/puback.rs", "src/pubrec.rs", "src/pubrel.rs", "src/pubcomp.rs"]}
{"id": "C05", "title": "SUBSCRIBE/UNSUBSCRIBE round trip", "statement": "Every Subscribe with at least one filter, and every Unsubscribe, whose write returns Ok is read back identically, filters in the same order with the same options.", "quantifier": "every non-empty filter list of any length, every option combination, every property set", "why_tests_cant": "unbounded filter lists and strings", "anchors": ["src/subscribe.rs Subscribe, Filter, SubscribeProperties", "src/unsubscribe.rs Unsubscribe"]}
{"id": "C06", "title": "SUBACK/UNSUBACK round trip", "statement": "Every SubAck/UnsubAck with at least one reason code whose write returns Ok is read back identically, codes in order.", "quantifier": "every non-empty list of reason codes of any length, every property set", "why_tests_cant": "unbounded code lists", "anchors": ["src/suback.rs", "src/unsuback.rs"]}
{"id": "C07", "title": "PINGREQ/PINGRESP encoding", "statement": "Ping packets are two bytes, always writable, and read back as themselves; a ping is recognised by packet type alone.", "quantifier": "every buffer content before and after the ping", "why_tests_cant": "must hold for every surrounding stream", "anchors": ["src/ping.rs", "src/lib.rs Packet::read, Packet::write"]}
{"id": "C08", "title": "DISCONNECT round trip", "statement": "Every Disconnect whose write returns Ok is read back with the same reason code and properties (all-empty properties come back absent) and the buffer is left empty.", "quantifier": "every reason code and every property value, present or absent", "why_tests_cant": "28 reason codes times unbounded properties; the tests happen to use only combinations that work", "anchors": ["src/disconnect.rs Disconnect::len, Disconnect::read, Disconnect::write"]}
{"id": "C09", "title": "Remaining-length integer round trip and minimality", "statement": "For every length up to 268435455 the encoder emits between one and four bytes, the shortest possible, which the decoder maps back to the same length and byte count whatever bytes follow; larger lengths are refused with PayloadTooLong and nothing is emitted.", "quantifier": "every natural number, every following byte string", "why_tests_cant": "2^28 values times all suffixes, and an unbounded rejected range", "anchors": ["src/lib.rs length, write_remaining_length, len_len"]}
{"id": "C10", "title": "Reported size", "statement": "When write returns Ok(n), exactly n bytes were added to the buffer, n equals the packet's size() where that method exists, and n equals the frame length announced in the fixed header.", "quantifier": "every packet value accepted by write, every prior buffer content", "why_tests_cant": "the length function and the writer are two independent pieces of code that must agree on every value", "anchors": ["src/connack.rs ConnAck::len, ConnAck::size, ConnAck::write", "src/connect.rs Connect::len, Connect::size, Connect::write", "src/disconnect.rs Disconnect::len, Disconnect::size, Disconnect::write", "src/puback.rs PubAck::len, PubAck::size, PubAck::write", "src/pubcomp.rs PubComp::len, PubComp::size, PubComp::write", "src/publish.rs Publish::len, Publish::size, Publish::write", "src/pubrec.rs PubRec::len, PubRec::size, PubRec::write", "src/pubrel.rs PubRel::len, PubRel::size, PubRel::write", "src/suback.rs SubAck::len, SubAck::size, SubAck::write", "src/subscribe.rs Subscribe::len, Subscribe::size, Subscribe::write", "src/unsuback.rs UnsubAck::len, UnsubAck::size, UnsubAck::write", "src/unsubscribe.rs Unsubscribe::len, Unsubscribe::size, Unsubscribe::write", "src/ping.rs PingReq::write, PingResp::write", "src/lib.rs len_len, write_remaining_length"]}
{"id": "C11", "title": "Writing appends", "statement": "Writing a packet never alters bytes already in the buffer, and the bytes appended do not depend on what was there before.", "quantifier": "every packet, every prior buffer content", "why_tests_cant": "all tests write into an empty buffer", "anchors": ["src/connect.rs Connect::write flags_index", "src/lib.rs Packet::write"]}
{"id": "C12", "title": "Pipelining", "statement": "Writing any sequence of packets one after another into one buffer and then reading repeatedly returns exactly that sequence and leaves the buffer empty.", "quantifier": "every finite sequence of packets of all kinds, of any length", "why_tests_cant": "histories of unbounded length; tests write one packet per buffer", "anchors": ["src/lib.rs Packet::read, Packet::write", "src/connect.rs Connect::write"]}
{"id": "C13", "title": "Decoder totality", "statement": "Packet::read returns a packet or an error on every byte stream and every size limit: it never panics, indexes out of bounds or loops forever.", "quantifier": "every byte sequence (hostile or truncated at any point), every max_size", "why_tests_cant": "inputs are arbitrary network bytes of any length", "anchors": ["src/lib.rs Packet::read, read_u8, read_u16, read_u32, read_mqtt_bytes, length", "src/connack.rs ConnAck::read, ConnAckProperties::read", "src/connect.rs Connect::read, ConnectProperties::read, LastWillProperties::read", "src/disconnect.rs Disconnect::read, DisconnectProperties::extract", "src/puback.rs PubAck::read, PubAckProperties::read", "src/pubcomp.rs PubComp::read, PubCompProperties::read", "src/publish.rs Publish::read, PublishProperties::read", "src/pubrec.rs PubRec::read, PubRecProperties::read", "src/pubrel.rs PubRel::read, PubRelProperties::read", "src/suback.rs SubAck::read, SubAckProperties::read", "src/subscribe.rs Subscribe::read, SubscribeProperties::read", "src/unsuback.rs UnsubAck::read, UnsubAckProperties::read", "src/unsubscribe.rs Unsubscribe::read, UnsubscribeProperties::read"]}
{"id": "C14", "title": "Exact frame consumption", "statement": "If the header check fails the stream is left untouched; otherwise exactly one frame (fixed header plus remaining length) is removed, whether its content decodes or not, and the rest of the stream is untouched.", "quantifier": "every byte stream, every max_size", "why_tests_cant": "must hold for every malformed content as well as every valid one, otherwise the stream desynchronises", "anchors": ["src/lib.rs Packet::read, check, FixedHeader::frame_length"]}
{"id": "C15", "title": "Decoding is local to the frame", "statement": "The result of Packet::read depends only on the bytes of the first frame: appending any bytes after it changes neither the result nor what is consumed.", "quantifier": "every complete frame and every suffix", "why_tests_cant": "quantifies over all suffixes", "anchors": ["src/lib.rs Packet::read, check"]}
{"id": "C16", "title": "Incomplete frames", "statement": "On every proper prefix of a complete frame, Packet::read reports InsufficientBytes(n) with n at least 1 and never more than what is really missing (exactly what is missing once the header is complete), and leaves the buffer untouched.", "quantifier": "every frame and every cut point (given the size limit admits the frame)", "why_tests_cant": "every cut point of every frame of every size", "anchors": ["src/lib.rs check, parse_fixed_header, length"]}
{"id": "C17", "title": "Chunking independence", "statement": "Feeding a byte stream to the decoder in any division into chunks, reading all complete frames after each chunk, produces the same sequence of packets and errors and the same leftover as feeding it at once.", "quantifier": "every byte stream and every division into any number of chunks", "why_tests_cant": "exponentially many divisions of unbounded streams", "anchors": ["src/lib.rs check, Packet::read"]}
{"id": "C18", "title": "Size limit", "statement": "With max_size = m, a frame whose remaining length exceeds m is never framed or consumed and is reported as PayloadSizeLimitExceeded with the announced length and m as soon as the header is complete; frames within the limit are decoded exactly as without a limit.", "quantifier": "every stream and every limit", "why_tests_cant": "must hold at every boundary value and before the body arrives", "anchors": ["src/lib.rs check, Packet::read"]}
{"id": "C19", "title": "InsufficientBytes means nothing was consumed", "statement": "If Packet::read returns InsufficientBytes, the stream is unchanged, so the caller may append more bytes and retry.", "quantifier": "every byte stream, every max_size", "why_tests_cant": "depends on every malformed body that can reuse the same error", "anchors": ["src/lib.rs length, Packet::read, check", "src/connack.rs ConnAck::read, ConnAckProperties::read", "src/connect.rs Connect::read, ConnectProperties::read, LastWillProperties::read", "src/disconnect.rs Disconnect::read, DisconnectProperties::extract", "src/puback.rs PubAck::read, PubAckProperties::read", "src/pubcomp.rs PubComp::read, PubCompProperties::read", "src/publish.rs Publish::read, PublishProperties::read", "src/pubrec.rs PubRec::read, PubRecProperties::read", "src/pubrel.rs PubRel::read, PubRelProperties::read", "src/suback.rs SubAck::read, SubAckProperties::read", "src/subscribe.rs Subscribe::read, SubscribeProperties::read", "src/unsuback.rs UnsubAck::read, UnsubAckProperties::read", "src/unsubscribe.rs Unsubscribe::read, UnsubscribeProperties::read"]}
{"id": "C20", "title": "What write accepts, and with which error it refuses", "statement": "write returns Ok exactly when every string/binary field fits in 65535 bytes, every subscription identifier and the packet body fit in 268435455, and a QoS>0 publish has a non-zero packet id; otherwise it returns PayloadTooLong, BinaryDataTooLong or PacketIdZero.", "quantifier": "every packet value", "why_tests_cant": "boundary conditions over unbounded fields", "anchors": ["src/lib.rs write_remaining_length, write_mqtt_bytes", "src/publish.rs Publish::write"]}
{"id": "C21", "title": "Failed writes leave the buffer as it was", "statement": "If write returns an error the buffer still holds what it held before, so that an already queued stream is not corrupted.", "quantifier": "every packet refused by write, every prior buffer content", "why_tests_cant": "every error position inside every packet", "anchors": ["src/lib.rs Packet::write, write_remaining_length, write_mqtt_bytes", "src/connack.rs ConnAck::write, ConnAckProperties::write", "src/connect.rs Connect::write, ConnectProperties::write, LastWillProperties::write", "src/disconnect.rs Disconnect::write, DisconnectProperties::write", "src/puback.rs PubAck::write, PubAckProperties::write", "src/pubcomp.rs PubComp::write, PubCompProperties::write", "src/publish.rs Publish::write, PublishProperties::write", "src/pubrec.rs PubRec::write, PubRecProperties::write", "src/pubrel.rs PubRel::write, PubRelProperties::write", "src/suback.rs SubAck::write, SubAckProperties::write", "src/subscribe.rs Subscribe::write, SubscribeProperties::write", "src/unsuback.rs UnsubAck::write, UnsubAckProperties::write", "src/unsubscribe.rs Unsubscribe::write, UnsubscribeProperties::write"]}
{"id": "C22", "title": "Encoder totality", "statement": "Packet::write returns Ok or an error for every packet value: it never panics.", "quantifier": "every packet value and every prior buffer", "why_tests_cant": "enum values that have no wire code, and index arithmetic into the buffer", "anchors": ["src/connack.rs connect_code", "src/connect.rs Connect::write"]}
{"id": "C23", "title": "Reason codes are a bijection with the wire codes", "statement": "For each packet kind, every accepted wire code decodes to a reason whose encoding is that same code, every encodable reason decodes back to itself, distinct reasons have distinct codes, and every other byte is refused with an error carrying that byte.", "quantifier": "all 256 byte values and all reasons of CONNACK, PUBACK, PUBREC, PUBREL, PUBCOMP, SUBACK, UNSUBACK, DISCONNECT", "why_tests_cant": "hand written pairs of tables, of which tests visit a handful of rows", "anchors": ["src/connack.rs connect_return, connect_code", "src/puback.rs reason, code", "src/pubrec.rs reason, code", "src/pubrel.rs reason, code", "src/pubcomp.rs reason, code", "src/suback.rs reason, code", "src/unsuback.rs reason, code", "src/disconnect.rs DisconnectReasonCode::try_from"]}
{"id": "C24", "title": "Properties in any order", "statement": "A property section holding any sequence of properties allowed for the packet decodes to: for each single-valued property the last value sent, for user properties and publish subscription identifiers all values in the order sent; in particular the relative order of different properties is irrelevant.", "quantifier": "every finite sequence of allowed properties with any values, for each of the thirteen property sections", "why_tests_cant": "other implementations send properties in other orders; the tests only read what this crate writes", "anchors": ["src/connack.rs ConnAckProperties::read", "src/connect.rs ConnectProperties::read, LastWillProperties::read", "src/disconnect.rs DisconnectProperties::extract", "src/puback.rs PubAckProperties::read", "src/pubcomp.rs PubCompProperties::read", "src/publish.rs PublishProperties::read", "src/pubrec.rs PubRecProperties::read", "src/pubrel.rs PubRelProperties::read", "src/suback.rs SubAckProperties::read", "src/subscribe.rs SubscribeProperties::read", "src/unsuback.rs UnsubAckProperties::read", "src/unsubscribe.rs UnsubscribeProperties::read"]}
{"id": "C25", "title": "Foreign properties are refused", "statement": "A property identifier that is unknown, or known but not allowed in the packet at hand, makes decoding fail with InvalidPropertyType carrying that identifier, at whatever position it occurs.", "quantifier": "all 256 identifiers, each of the thirteen property sections, after any sequence of allowed properties", "why_tests_cant": "27 x 13 table of allowed combinations at unbounded positions", "anchors": ["src/lib.rs property", "src/connack.rs ConnAckProperties::read", "src/connect.rs ConnectProperties::read, LastWillProperties::read", "src/disconnect.rs DisconnectProperties::extract", "src/puback.rs PubAckProperties::read", "src/pubcomp.rs PubCompProperties::read", "src/publish.rs PublishProperties::read", "src/pubrec.rs PubRecProperties::read", "src/pubrel.rs PubRelProperties::read", "src/suback.rs SubAckProperties::read", "src/subscribe.rs SubscribeProperties::read", "src/unsuback.rs UnsubAckProperties::read", "src/unsubscribe.rs UnsubscribeProperties::read"]}
{"id": "C26", "title": "Property section is confined to its declared length", "statement": "Decoding a property section consumes exactly the announced number of bytes: bytes after the section are never read as properties and property bytes never leak into the payload.", "quantifier": "every frame accepted by the decoder", "why_tests_cant": "requires every combination of announced length and actual property sizes", "anchors": ["src/lib.rs length, property", "src/connack.rs ConnAckProperties::read", "src/connect.rs ConnectProperties::read, LastWillProperties::read", "src/disconnect.rs DisconnectProperties::extract", "src/puback.rs PubAckProperties::read", "src/pubcomp.rs PubCompProperties::read", "src/publish.rs PublishProperties::read", "src/pubrec.rs PubRecProperties::read", "src/pubrel.rs PubRelProperties::read", "src/suback.rs SubAckProperties::read", "src/subscribe.rs SubscribeProperties::read", "src/unsuback.rs UnsubAckProperties::read", "src/unsubscribe.rs UnsubscribeProperties::read"]}
{"id": "C27", "title": "Strings are valid UTF-8", "statement": "With the String, boxed or Cow string features every text field of a decoded packet is the UTF-8 encoding of a sequence of Unicode scalar values, and a frame with an ill-formed text field is refused with TopicNotUtf8; with binary_string the bytes are delivered unchanged.", "quantifier": "every byte sequence in every text field", "why_tests_cant": "ill-formed sequences (overlong, surrogate, truncated, out of range) at any position", "anchors": ["src/lib.rs read_mqtt_string"]}
{"id": "C28", "title": "Decoded packets are well formed", "statement": "Every packet returned by Packet::read satisfies: QoS>0 publish has non-zero id and QoS 0 has id 0, Subscribe/SubAck/UnsubAck lists are non-empty, present property sets are non-empty, a present login is non-empty, strings are at most 65535 bytes, subscription identifiers at most 268435455.", "quantifier": "every byte stream on which read succeeds", "why_tests_cant": "quantifies over all accepted inputs", "anchors": ["src/lib.rs Packet::read", "src/connack.rs ConnAck::read", "src/connect.rs Connect::read", "src/disconnect.rs Disconnect::read", "src/puback.rs PubAck::read", "src/pubcomp.rs PubComp::read", "src/publish.rs Publish::read", "src/pubrec.rs PubRec::read", "src/pubrel.rs PubRel::read", "src/suback.rs SubAck::read", "src/subscribe.rs Subscribe::read", "src/unsuback.rs UnsubAck::read", "src/unsubscribe.rs Unsubscribe::read"]}
{"id": "C29", "title": "Re-encoding is stable", "statement": "A packet obtained from Packet::read can be written and read again giving the same packet.", "quantifier": "every byte stream on which read succeeds", "why_tests_cant": "quantifies over all accepted inputs including non-canonical ones from other implementations", "anchors": ["src/lib.rs Packet::read, Packet::write", "src/connack.rs ConnAck::read, ConnAck::write", "src/connect.rs Connect::read, Connect::write", "src/disconnect.rs Disconnect::read, Disconnect::write", "src/puback.rs PubAck::read, PubAck::write", "src/pubcomp.rs PubComp::read, PubComp::write", "src/publish.rs Publish::read, Publish::write", "src/pubrec.rs PubRec::read, PubRec::write", "src/pubrel.rs PubRel::read, PubRel::write", "src/suback.rs SubAck::read, SubAck::write", "src/subscribe.rs Subscribe::read, Subscribe::write", "src/unsuback.rs UnsubAck::read, UnsubAck::write", "src/unsubscribe.rs Unsubscribe::read, Unsubscribe::write"]}
{"id": "C30", "title": "Encodings are unambiguous", "statement": "Two packets that are written to the same bytes are the same packet up to normalisation, and no packet's encoding is a proper prefix of another's.", "quantifier": "every pair of packets", "why_tests_cant": "pairs of unbounded values", "anchors": ["src/lib.rs Packet::write, Packet::read"]}
{"id": "C31", "title": "Wire format conformance", "statement": "The bytes appended by write are exactly the MQTT 5 encoding of the packet: type and flags byte, minimal remaining length, variable header, properties with their MQTT 5 identifiers and types, payload.", "quantifier": "every packet accepted by write", "why_tests_cant": "interoperability needs the exact bytes for every value, while round-trip tests cannot see symmetric mistakes", "anchors": ["src/lib.rs Packet::write", "src/connack.rs ConnAck::write", "src/connect.rs Connect::write", "src/disconnect.rs Disconnect::write", "src/puback.rs PubAck::write", "src/pubcomp.rs PubComp::write", "src/publish.rs Publish::write", "src/pubrec.rs PubRec::write", "src/pubrel.rs PubRel::write", "src/suback.rs SubAck::write", "src/subscribe.rs Subscribe::write", "src/unsuback.rs UnsubAck::write", "src/unsubscribe.rs Unsubscribe::write", "src/ping.rs PingReq::write, PingResp::write"]}
{"id": "C32", "title": "CONNECT validation", "statement": "A CONNECT frame is accepted only with protocol name MQTT and level 5; will flags without the will bit, and will QoS 3, are refused; clean start, will QoS/retain, username and password are governed by exactly their flag bits.", "quantifier": "every flag byte, protocol name, level and body", "why_tests_cant": "256 flag bytes times unbounded bodies", "anchors": ["src/connect.rs Connect::read, LastWill::read, Login::read"]}
{"id": "C33", "title": "PUBLISH header bits and packet id", "statement": "dup, QoS and retain are read from and written to exactly bits 3, 2-1 and 0 of the first byte; QoS 3 is refused; the packet id is present exactly when QoS is above 0 and a zero id is refused by both read and write.", "quantifier": "every first byte, id, topic, body", "why_tests_cant": "all bit combinations with all bodies", "anchors": ["src/publish.rs Publish::read, Publish::write"]}
{"id": "C34", "title": "Subscription options byte", "statement": "Filter options are read from exactly bits 1-0 (QoS), 2 (no local), 3 (retain as published), 5-4 (retain handling); QoS 3 and retain handling 3 are refused.", "quantifier": "all 256 option bytes, any number of filters", "why_tests_cant": "each option byte at every position of an unbounded list", "anchors": ["src/subscribe.rs Filter::read, Filter::write"]}
{"id": "C35", "title": "Packet type dispatch", "statement": "The packet kind is determined by the upper four bits of the first byte alone; types 0 and 15 are refused with InvalidPacketType; a zero remaining length is accepted only for PINGREQ, PINGRESP and DISCONNECT and otherwise refused with PayloadRequired.", "quantifier": "every first byte and every body", "why_tests_cant": "256 first bytes times all bodies", "anchors": ["src/lib.rs FixedHeader::packet_type, Packet::read"]}
{"id": "C36", "title": "No amplification", "statement": "The total size of the variable-length data in a decoded packet (strings, binary fields, payload, list entries) never exceeds the frame's remaining length.", "quantifier": "every accepted frame", "why_tests_cant": "a memory safety/DoS bound over all inputs", "anchors": ["src/lib.rs Packet::read", "src/connack.rs ConnAck::read", "src/connect.rs Connect::read", "src/disconnect.rs Disconnect::read", "src/puback.rs PubAck::read", "src/pubcomp.rs PubComp::read", "src/publish.rs Publish::read", "src/pubrec.rs PubRec::read", "src/pubrel.rs PubRel::read", "src/suback.rs SubAck::read", "src/subscribe.rs Subscribe::read", "src/unsuback.rs UnsubAck::read", "src/unsubscribe.rs Unsubscribe::read"]}
{"id": "C37", "title": "Typed readers called directly", "statement": "The public per-packet read functions, given any fixed header and bytes, panic exactly when the bytes are shorter than the header length and otherwise always return Ok or Err (PUBLISH refuses QoS 3 before looking at the bytes); the public readers of property sets, filters, wills and logins never panic.", "quantifier": "every FixedHeader value and every byte string", "why_tests_cant": "public API callable with inconsistent arguments", "anchors": ["src/lib.rs FixedHeader::new", "src/connack.rs ConnAck::read", "src/connect.rs Connect::read", "src/disconnect.rs Disconnect::read", "src/puback.rs PubAck::read", "src/pubcomp.rs PubComp::read", "src/publish.rs Publish::read", "src/pubrec.rs PubRec::read", "src/pubrel.rs PubRel::read", "src/suback.rs SubAck::read", "src/subscribe.rs Subscribe::read", "src/unsuback.rs UnsubAck::read", "src/unsubscribe.rs Unsubscribe::read"]}
{"id": "C38", "title": "Short-form acknowledgements", "statement": "PUBACK/PUBREC/PUBREL/PUBCOMP frames with remaining length 2 decode as Success without properties, with remaining length 3 as the given reason without properties; DISCONNECT with remaining length 0 decodes as normal disconnection and with remaining length 1 as the given reason without properties, as MQTT 5 requires.", "quantifier": "every packet id and reason byte", "why_tests_cant": "forms this crate never writes but peers send", "anchors": ["src/puback.rs:72-104", "src/pubrec.rs:71-99", "src/pubrel.rs:69-98", "src/pubcomp.rs:67-97", "src/disconnect.rs:293-319"]}
{"id": "C39", "title": "PUBLISH payload", "statement": "The payload of a decoded PUBLISH is exactly the bytes of the frame after the property section, unmodified.", "quantifier": "every PUBLISH frame with any properties and payload", "why_tests_cant": "any payload content, including bytes that look like properties", "anchors": ["src/publish.rs Publish::read, PublishProperties::read"]}
{"id": "C40", "title": "Decoder characterisation", "statement": "The set of accepted frames and the packet each decodes to are exactly those of a declarative grammar of the frame (soundness and completeness), so no accepted frame is mis-decoded and no well-formed MQTT 5 frame of a supported kind is refused.", "quantifier": "every frame and every packet", "why_tests_cant": "an iff over all byte strings", "anchors": ["src/lib.rs Packet::read", "src/connack.rs ConnAck::read, ConnAckProperties::read", "src/connect.rs Connect::read, ConnectProperties::read, LastWillProperties::read", "src/disconnect.rs Disconnect::read, DisconnectProperties::extract", "src/puback.rs PubAck::read, PubAckProperties::read", "src/pubcomp.rs PubComp::read, PubCompProperties::read", "src/publish.rs Publish::read, PublishProperties::read", "src/pubrec.rs PubRec::read, PubRecProperties::read", "src/pubrel.rs PubRel::read, PubRelProperties::read", "src/suback.rs SubAck::read, SubAckProperties::read", "src/subscribe.rs Subscribe::read, SubscribeProperties::read", "src/unsuback.rs UnsubAck::read, UnsubAckProperties::read", "src/unsubscribe.rs Unsubscribe::read, UnsubscribeProperties::read"]}
{"id": "C41", "title": "Topic filter validity and matching", "statement": "The helper functions in /repo/mod.rs: a filter is valid iff it is non-empty, '#' appears only as the whole last level and '+' only as a whole level; a topic matches a valid filter iff level-wise equality modulo '+' and trailing '#' holds and the topic does not start with '$'.", "quantifier": "every topic and filter string", "why_tests_cant": "unbounded strings; note mod.rs is not compiled into the crate", "anchors": ["mod.rs valid_topic, valid_filter, has_wildcards, matches"]}
{"id": "C42", "title": "Error taxonomy", "statement": "Every error returned by Packet::read says what is wrong: nothing is consumed exactly for an incomplete frame (InsufficientBytes), a malformed length field (MalformedRemainingLength) or a length over the limit (PayloadSizeLimitExceeded); every error on a complete frame is one of a fixed table for its packet type, and errors that carry a value carry the offending one.", "quantifier": "every byte stream, every size limit, both string modes", "why_tests_cant": "ranges over all streams and all errors; a test sees one stream at a time and cannot show that an error variant never arises", "anchors": ["src/lib.rs Error, check, Packet::read"]}
{"id": "C43", "title": "Written frames conform to MQTT 5", "statement": "For a packet whose values respect MQTT 5 (property values in range, texts without U+0000, non-zero packet ids, non-empty lists, no DUP with QoS 0, no Session Present with an error, no authentication data without a method, no No Local for shared subscriptions, well-formed topic names and filters, messages that are UTF-8 if the payload format indicator says so), what a successful write appends is a conforming MQTT 5 control packet for it: fixed header flags, shortest remaining length, reserved bits zero, exact property section with single-valued properties at most once, no bytes missing or left over.", "quantifier": "every packet value, every prior buffer content", "why_tests_cant": "quantifies over all packet values; a peer with a strict parser sees all of them", "anchors": ["src/lib.rs Packet::write", "src/connack.rs ConnAck::write", "src/connect.rs Connect::write", "src/disconnect.rs Disconnect::write", "src/puback.rs PubAck::write", "src/pubcomp.rs PubComp::write", "src/publish.rs Publish::write", "src/pubrec.rs PubRec::write", "src/pubrel.rs PubRel::write", "src/suback.rs SubAck::write", "src/subscribe.rs Subscribe::write", "src/unsuback.rs UnsubAck::write", "src/unsubscribe.rs Unsubscribe::write", "src/ping.rs PingReq::write, PingResp::write"]}
{"id": "C44", "title": "Exact diagnosis", "statement": "Packet::read fails with error e exactly when e describes the first defect of the input: a stream that is no complete admissible frame is reported (InsufficientBytes with the number of bytes known to be missing, MalformedRemainingLength, PayloadSizeLimitExceeded with announced length and limit) and left as it was; a complete frame is removed, and the error names the first field, in wire order, that is not well-formed, carrying the offending value (announced string length, foreign property identifier, unknown reason code, protocol level, packet type, QoS, retain rule). Each frame has either one meaning or one such defect.", "quantifier": "every byte stream, every size limit, both string modes, all packet types, any number of properties and list items before the defect", "why_tests_cant": "each (position, defect) pair of each packet type with any preceding content is a separate case; tests cannot show that an error is reported in no other situation", "anchors": ["src/lib.rs Packet::read, check, length, read_mqtt_bytes, read_mqtt_string, property", "src/connack.rs ConnAck::read, ConnAckProperties::read", "src/connect.rs Connect::read, ConnectProperties::read, LastWillProperties::read", "src/disconnect.rs Disconnect::read, DisconnectProperties::extract", "src/puback.rs PubAck::read, PubAckProperties::read", "src/pubcomp.rs PubComp::read, PubCompProperties::read", "src/publish.rs Publish::read, PublishProperties::read", "src/pubrec.rs PubRec::read, PubRecProperties::read", "src/pubrel.rs PubRel::read, PubRelProperties::read", "src/suback.rs SubAck::read, SubAckProperties::read", "src/subscribe.rs Subscribe::read, SubscribeProperties::read", "src/unsuback.rs UnsubAck::read, UnsubAckProperties::read", "src/unsubscribe.rs Unsubscribe::read, UnsubscribeProperties::read"]}
{"id": "C45", "title": "Typed readers and check agree with Packet::read", "statement": "The read function of each packet type, given a fixed header with the frame's remaining length and header length and the bytes of the frame, returns what Packet::read returns for that frame, whatever the header bytes hold (PUBLISH: same flags; DISCONNECT: same first byte). check succeeds exactly on streams that start with a complete admissible frame, frame_length() of its result is that frame's length, and Packet::read consumes exactly so many bytes; if check fails, Packet::read fails with the same error and leaves the stream unchanged.", "quantifier": "every byte stream, size limit, string mode, packet type, header bytes and body", "why_tests_cant": "two entry points must agree on every input, malformed ones included", "anchors": ["src/lib.rs check, FixedHeader::frame_length, Packet::read", "src/connack.rs ConnAck::read", "src/connect.rs Connect::read", "src/disconnect.rs Disconnect::read", "src/puback.rs PubAck::read", "src/pubcomp.rs PubComp::read", "src/publish.rs Publish::read", "src/pubrec.rs PubRec::read", "src/pubrel.rs PubRel::read", "src/suback.rs SubAck::read", "src/subscribe.rs Subscribe::read", "src/unsuback.rs UnsubAck::read", "src/unsubscribe.rs Unsubscribe::read"]}
{"id": "C46", "title": "Readers and writers of the parts of packets", "statement": "Called directly, the writer of each of the 13 property records, of a subscription filter, of a will and of a login succeeds exactly if the value is representable, appends exactly the MQTT 5 encoding to whatever the buffer holds and returns the matching CONNECT flag bits (will, login); otherwise it returns an error and the old content is still the beginning of the buffer. The readers return the same value from these bytes, whatever follows, and leave what follows (an empty record or login is read as absent; PUBLISH properties: if the identifier miscount has no effect).", "quantifier": "every record, filter list, will, login, buffer content, following bytes, string mode, CONNECT flags", "why_tests_cant": "value spaces are unbounded and the claim is about every surrounding buffer", "anchors": ["src/connack.rs ConnAckProperties::read, ConnAckProperties::write", "src/connect.rs ConnectProperties::read, ConnectProperties::write, LastWillProperties::read, LastWillProperties::write, LastWill::read, LastWill::write, Login::read, Login::write", "src/disconnect.rs DisconnectProperties::extract, DisconnectProperties::write", "src/puback.rs PubAckProperties::read, PubAckProperties::write", "src/pubcomp.rs PubCompProperties::read, PubCompProperties::write", "src/publish.rs PublishProperties::read, PublishProperties::write", "src/pubrec.rs PubRecProperties::read, PubRecProperties::write", "src/pubrel.rs PubRelProperties::read, PubRelProperties::write", "src/suback.rs SubAckProperties::read, SubAckProperties::write", "src/subscribe.rs SubscribeProperties::read, SubscribeProperties::write, Filter::read, Filter::write", "src/unsuback.rs UnsubAckProperties::read, UnsubAckProperties::write", "src/unsubscribe.rs UnsubscribeProperties::read, UnsubscribeProperties::write"]}
{"id": "C47", "title": "Constructors and defaults", "statement": "A packet made by a constructor holds the given fields and, on the wire, nothing else: no flags, no properties but the given ones, success as reason, packet identifier 0. Consequently Publish::new above QoS 0 is refused with PacketIdZero until an identifier is set and is then written with it, while Subscribe::new, new_many and Unsubscribe::new are written with identifier 0. Default property records are empty sections. Disconnect::new with a reason other than normal disconnection appends one byte more than it announces.", "quantifier": "all constructor arguments, every buffer content", "why_tests_cant": "the claim is about every topic, payload, property record and buffer", "anchors": ["src/publish.rs Publish::new", "src/subscribe.rs Subscribe::new, Subscribe::new_many, Filter::new", "src/unsubscribe.rs Unsubscribe::new", "src/disconnect.rs Disconnect::new", "src/connect.rs ConnectProperties::new, Login::new", "src/connack.rs ConnAckProperties::new", "src/lib.rs mqtt_string_new", "src/puback.rs PubAck::new", "src/pubrec.rs PubRec::new", "src/pubrel.rs PubRel::new", "src/pubcomp.rs PubComp::new"]}
{"id": "C48", "title": "What matters in a fixed header", "statement": "Two frames with the same packet type and the same body are treated alike by Packet::read (same result, same bytes left), however their remaining length is encoded and whatever the reserved low four bits of the first byte are, except that for PUBLISH these bits are flags and for DISCONNECT they must be 0, else the frame is refused as MalformedPacket.", "quantifier": "every packet type, body, following bytes, size limit, string mode, first byte, valid encoding of the remaining length", "why_tests_cant": "pairs of arbitrary frames", "anchors": ["src/lib.rs Packet::read, FixedHeader::packet_type, length", "src/disconnect.rs Disconnect::read", "src/publish.rs Publish::read"]}
{"id": "C49", "title": "All that write does, failures included", "statement": "Packet::write writes the fields of the packet one after the other in the order of the MQTT 5 layout: first byte, remaining length, the fields of the variable header, each property section as its length, and for every property its identifier and value, then the payload. If all fields can be written it returns 1 + the size of the length field + the announced length. Otherwise the first field that cannot be written decides the error (or, for a return code that MQTT 5 does not have, the panic), and exactly the fields before it are left in the buffer behind the old content. A packet that is too long is refused at once with only its first byte written.", "quantifier": "every packet, encodable or not, every content of the buffer", "why_tests_cant": "packets that violate several limits at once; arbitrary property lists, long strings and buffer contents", "anchors": ["src/lib.rs Packet::write, write_remaining_length, write_mqtt_bytes, write_mqtt_string", "src/connack.rs ConnAck::write, ConnAckProperties::write", "src/connect.rs Connect::write, ConnectProperties::write, LastWillProperties::write", "src/disconnect.rs Disconnect::write, DisconnectProperties::write", "src/puback.rs PubAck::write, PubAckProperties::write", "src/pubcomp.rs PubComp::write, PubCompProperties::write", "src/publish.rs Publish::write, PublishProperties::write", "src/pubrec.rs PubRec::write, PubRecProperties::write", "src/pubrel.rs PubRel::write, PubRelProperties::write", "src/suback.rs SubAck::write, SubAckProperties::write", "src/subscribe.rs Subscribe::write, SubscribeProperties::write", "src/unsuback.rs UnsubAck::write, UnsubAckProperties::write", "src/unsubscribe.rs Unsubscribe::write, UnsubscribeProperties::write", "src/ping.rs PingReq::write, PingResp::write"]}
{"id": "C50", "title": "No integer overflow on 32-bit or 64-bit targets", "statement": "On a target whose usize has at least 32 bits, no addition, subtraction or shift on usize in the decoder overflows, whatever bytes are read: with overflow checks made explicit, reading a variable byte integer, the fixed header, check, each of the thirteen property sections and Packet::read as a whole do the same as with unbounded integers. The same holds of the readers of the single packet types called directly with any header; FixedHeader::new and frame_length on made-up numbers yield the exact sum or, in a build with overflow checks, panic if it is not representable. When write succeeds, the announced length and the number returned are below 2^32 as well.", "quantifier": "every byte sequence, every size limit, every string mode, every usize width of at least 32 bits; every packet that is written", "why_tests_cant": "overflow needs inputs of hundreds of megabytes or rare combinations; the bound must hold for all of them", "anchors": ["src/lib.rs length, parse_fixed_header, FixedHeader::new, FixedHeader::frame_length, check", "src/connack.rs ConnAckProperties::read", "src/connect.rs ConnectProperties::read, LastWillProperties::read", "src/disconnect.rs DisconnectProperties::extract", "src/puback.rs PubAckProperties::read", "src/pubcomp.rs PubCompProperties::read", "src/publish.rs PublishProperties::read", "src/pubrec.rs PubRecProperties::read", "src/pubrel.rs PubRelProperties::read", "src/suback.rs SubAckProperties::read", "src/subscribe.rs SubscribeProperties::read", "src/unsuback.rs UnsubAckProperties::read", "src/unsubscribe.rs UnsubscribeProperties::read"]}
{"id": "C51", "title": "A connection delivers the packets sent, in order, whatever the schedule", "statement": "A sender writes packets into a buffer (CONNECT only while it is empty; after a refused write it truncates the buffer to its old length), the bytes are moved to a receiver in portions of any size, and the receiver calls Packet::read at any time. Then at every moment the packets received are the first of the packets sent, in order and each once (up to normalisation); the receiver never sees an error but InsufficientBytes, which leaves its buffer alone and never asks for more bytes than are on their way; when all bytes have arrived and read has nothing more to return, everything has been received and the buffer is empty; and from every state this point can be reached.", "quantifier": "every history of writes, refused writes, transfers of any size, reads and failed reads, of any length; every packet that survives a round trip on its own (C01-C08)", "why_tests_cant": "all interleavings and all divisions of the stream, of unbounded length", "anchors": ["src/lib.rs Packet::read, Packet::write, check"]}
{"id": "C52", "title": "No overflow in the encoder's lengths", "statement": "On every target whose usize has at least 32 bits, the size a packet reports and the remaining length its encoder announces are computed without overflow, in builds with and without overflow checks, whenever the true value is representable, and then Packet::write as a whole returns and appends the same as with unbounded integers; if the announced length is not representable, Packet::write panics in a build with overflow checks. In particular every packet within the protocol limit is sized exactly.", "quantifier": "every packet, every word size of at least 32 bits, both kinds of build", "why_tests_cant": "Overflow needs packets of more than 2^32 bytes, and the lengths are sums over lists of any length; a test sees only small sums.", "anchors": ["src/lib.rs len_len, Packet::write, write_remaining_length", "src/connack.rs ConnAck::len, ConnAck::size, ConnAckProperties::len", "src/connect.rs Connect::len, Connect::size, ConnectProperties::len, LastWillProperties::len, LastWill::len, Login::len", "src/disconnect.rs Disconnect::len, Disconnect::size, DisconnectProperties::len", "src/puback.rs PubAck::len, PubAck::size, PubAckProperties::len", "src/pubcomp.rs PubComp::len, PubComp::size, PubCompProperties::len", "src/publish.rs Publish::len, Publish::size, PublishProperties::len", "src/pubrec.rs PubRec::len, PubRec::size, PubRecProperties::len", "src/pubrel.rs PubRel::len, PubRel::size, PubRelProperties::len", "src/suback.rs SubAck::len, SubAck::size, SubAckProperties::len", "src/subscribe.rs Subscribe::len, Subscribe::size, SubscribeProperties::len", "src/unsuback.rs UnsubAck::len, UnsubAck::size, UnsubAckProperties::len", "src/unsubscribe.rs Unsubscribe::len, Unsubscribe::size, UnsubscribeProperties::len"]}
{"id": "C53", "title": "The specification determines the codec", "statement": "The account given in C40, C44 and C49 leaves nothing open: any function that delivers exactly the packets of the grammar, consumes exactly their frames and reports exactly the first defects gives the same result and leaves the same rest as Packet::read on every input and under every size limit; and any function that appends exactly the pieces of a packet up to the first that cannot be written does the same as Packet::write on every packet and buffer. So a change of the code that can be observed through read or write on any input contradicts one of these properties.", "quantifier": "every byte sequence, every limit, both string modes; every packet and buffer; every function of the type of read or write", "why_tests_cant": "it quantifies over all functions and all inputs", "anchors": ["src/lib.rs Packet::read, Packet::write"]}
{"id": "C54", "title": "A reading loop that waits for the bytes it is asked for", "statement": "A receiver that calls Packet::read in a loop and, on InsufficientBytes(k), waits until at least k more bytes have arrived, returns all packets of the stream in order and then the error of the first defective frame, however the bytes arrive; it waits only when no complete frame is left, and never for bytes beyond the frame it is reading.", "quantifier": "every byte stream, every division into arrivals of at least the number of bytes asked for, every limit and string mode", "why_tests_cant": "The divisions of a stream are exponentially many, and the failing streams are those with a complete frame that breaks off in a property section, for which InsufficientBytes is returned too.", "anchors": ["src/lib.rs Packet::read", "src/lib.rs check", "src/lib.rs parse_fixed_header", "src/lib.rs length", "src/disconnect.rs Disconnect::read"]}
{"id": "C55", "title": "Decoding takes linear time", "statement": "A call of Packet::read executes at most four loop iterations more than the number of bytes it consumes, and fewer iterations than it consumes bytes if it returns a packet; a call that consumes nothing executes at most four, however many bytes of an incomplete frame are in the buffer: exactly one for each byte of the length field it looks at. So over a whole session, in whatever pieces the bytes arrive and whenever read is called, the iterations are at most the bytes that have arrived plus four for each call that returned no packet. A packet returned has fewer list entries than its frame has bytes.", "quantifier": "every byte sequence, limit and string mode; every interleaving of arrivals and calls", "why_tests_cant": "A quadratic case on some input, or rescanning of a partial frame, is found by a test only if it happens to try that input; the bound is over all inputs and all interleavings.", "anchors": ["src/lib.rs Packet::read", "src/lib.rs length", "src/publish.rs PublishProperties::read", "src/subscribe.rs Filter::read", "src/suback.rs SubAck::read", "src/unsubscribe.rs Unsubscribe::read"]}
{"id": "C56", "title": "Passing a packet on does not need a longer frame", "statement": "A frame that conforms to MQTT 5 and is not among those the library refuses is decoded by Packet::read, and the packet returned can be written with Packet::write behind any content of any buffer. At most one byte more than the frame had is added to the buffer, and none more unless the frame is a PUBACK, PUBREC, PUBREL or PUBCOMP of remaining length 3 with a reason code other than 0: such a frame always grows by one byte.", "quantifier": "every conforming supported frame, every following bytes, every admissible limit, both string modes, every buffer content", "why_tests_cant": "A forwarder that relies on its outgoing limit being as large as the incoming one must know it for every frame; the frames that grow are a special form of four packet kinds.", "anchors": ["src/lib.rs Packet::read", "src/lib.rs Packet::write", "src/puback.rs PubAck::write", "src/pubrec.rs PubRec::write", "src/pubrel.rs PubRel::write", "src/pubcomp.rs PubComp::write"]}
{"id": "C57", "title": "The text of an error identifies it", "statement": "Two errors of this library have the same Display text only if they are equal, or both are InvalidProtocolLevel, whose text does not show the level.", "quantifier": "every pair of errors, with every value of the numbers in them", "why_tests_cant": "Texts of two kinds could coincide for particular numbers only, and the numbers of two texts could run together; all pairs of numbers are infinitely many.", "anchors": ["src/lib.rs Error"]}
{"id": "C58", "title": "Encoding takes linear time", "statement": "A call of Packet::write that succeeds executes at most two loop iterations for each byte it adds to the buffer; whatever its outcome, a call executes at most seven iterations for each list entry of the packet and twelve more. So writing any sequence of packets into a buffer takes at most two iterations for each byte.", "quantifier": "every packet, every buffer content, every sequence of packets", "why_tests_cant": "The lengths are computed anew at each level of nesting, so a quadratic case would show only for packets of a particular shape; the bound is over all packets.", "anchors": ["src/lib.rs Packet::write", "src/lib.rs write_remaining_length", "src/publish.rs PublishProperties::len", "src/publish.rs PublishProperties::write", "src/subscribe.rs Subscribe::len", "src/suback.rs SubAck::write"]}
{"id": "C59", "title": "Encoded packets can be patched in place", "statement": "Writing a PUBLISH again with other DUP and RETAIN flags gives the same outcome and the same bytes but for bits 3 and 0 of the first byte, and writing a packet again with another packet identifier gives the same bytes but for the two bytes of the identifier, which stand behind the fixed header (PUBLISH: behind the topic); a PUBLISH at QoS 0 is written alike whatever its identifier. Conversely, changing these bits or bytes in a frame that Packet::read accepts changes just these fields of the packet returned, and changing the flags of a PUBLISH frame that is refused changes nothing.", "quantifier": "every packet, identifier, pair of flags and buffer content; every frame, size limit, string mode and following bytes", "why_tests_cant": "A length or flag that depended on an identifier or on DUP would show only for particular values of the fields; resending relies on it for all.", "anchors": ["src/publish.rs Publish::write", "src/publish.rs Publish::read", "src/publish.rs Publish::len", "src/puback.rs PubAck", "src/subscribe.rs Subscribe", "src/unsubscribe.rs Unsubscribe", "src/suback.rs SubAck"]}
{"id": "C60", "title": "Sender's size and receiver's limit", "statement": "A packet for which write returned n is refused for its size by a reader with max_size m exactly if n is above m plus the size of the fixed header (2 to 5 bytes, a function of n), with the size without fixed header and m in the error and the stream unchanged; otherwise it is read as without limit. So a packet with n <= m is never refused for its size, and one with n > m + 5 always is.", "quantifier": "every packet accepted by write, every limit, string mode and following bytes; every buffer content (CONNECT: empty buffer)", "why_tests_cant": "The sender computes the size, the receiver the limit, from different functions; they could disagree at each of the boundaries of the length encoding, for packets of up to 256 MB.", "anchors": ["src/lib.rs Packet::write", "src/lib.rs check", "src/lib.rs len_len", "src/lib.rs Packet::read"]}
{"id": "C61", "title": "Frames are decoded independently", "statement": "Reading a stream for as long as bytes are consumed splits it into the complete admissible frames at its beginning and returns for each of them, in order, exactly what reading it alone returns, be it a packet or an error; what is left does not begin with such a frame. Hence exchanging one frame for another, for instance a damaged one, changes the result for this frame and no other.", "quantifier": "every byte stream, every number of frames and contents, every position of the exchanged frame, every limit and string mode", "why_tests_cant": "A decoder that kept state or lost its place after some malformed frame would go wrong only for particular frame contents followed by particular frames.", "anchors": ["src/lib.rs Packet::read", "src/lib.rs check", "src/lib.rs parse_fixed_header"]}
{"id": "C62", "title": "Comparing two filters", "statement": "The helper matches in /repo/mod.rs, which its comment says can be used on two filters: if matches(f, g) is true, g matches everything that f matches. For valid filters it is exact: matches(f, g) is true if and only if every topic name matched by f is matched by g, except that it is false for f = \"#\" and g = \"+/#\", which match the same topics (f not beginning with '$' or a multi-byte character). Every such filter matches itself, and a filter without wildcards matches itself only.", "quantifier": "every pair of filters, every topic name, of any number and length of levels", "why_tests_cant": "Whether one filter covers another is a statement about all topics; a test can only try some.", "anchors": ["mod.rs matches", "mod.rs valid_filter", "mod.rs valid_topic"]}
{"id": "C63", "title": "Relays", "statement": "A relay reads packets under a limit m (at most 268435451, four below the protocol's) and writes them in order into an outgoing buffer. No write is refused, and at most 5 bytes per packet are added to what was received. If CONNECT is only the first packet, the next node, whose limit is at least m + 4, reads the very same packets, whatever follows, exactly if none of them is a DISCONNECT with a reason other than normal disconnection and no properties or a PUBLISH whose subscription identifiers are miscounted. Then every further relay of a chain receives and sends the same bytes as the first one sent.", "quantifier": "every incoming byte stream and limit, every number of packets, both string modes, every content behind the packets", "why_tests_cant": "It must hold for every stream of accepted frames, also those in unusual encodings, and for every length of session and of chain.", "anchors": ["src/lib.rs Packet::read, Packet::write"]}
{"id": "C64", "title": "Readers and writers of parts, exactly and with their failures", "statement": "The public readers of property records, wills, logins and subscription lists, called directly on any bytes, return a value exactly if the input starts with a wire form of that value and leave what follows it (subscriptions: consume all), fail with an error exactly if the input has the defect the error stands for, and never panic or loop. The public writers of the same parts append, to whatever is in the buffer, the pieces of the part in order up to the first that cannot be written, which decides the error; the writers of wills and logins return the flags of the CONNECT.", "quantifier": "every input, flag byte, string mode; every value, encodable or not, every buffer", "why_tests_cant": "Every combination of present and absent properties, every input and every position of an unwritable value must be covered.", "anchors": ["src/connect.rs ConnectProperties::read, ConnectProperties::write, LastWill::read, LastWill::write, Login::read, Login::write", "src/subscribe.rs Filter::read, Filter::write", "src/publish.rs PublishProperties::read, PublishProperties::write"]}
{"id": "C65", "title": "Strict validation by encoding again", "statement": "Packet::read accepts more than MQTT 5 permits. A user who needs a strict check can decode a frame, write the packet into an empty buffer, compare the bytes with the frame, and check the values in the packet (property values in range, texts without U+0000, packet ids not zero, lists not empty, no DUP with QoS 0, no Session Present with an error, no authentication data without a method, no No Local for shared subscriptions, topic names and filters well-formed: valid_topic and valid_filter check exactly that, but for the form of the filters of shared subscriptions; messages that are UTF-8 if the payload format indicator says so): a frame that passes conforms to MQTT 5 in full, and a frame that is decoded and encoded again to the same bytes conforms exactly if its values are permitted. The packet of a conforming supported frame always has permitted values; exactly one frame passes the check for it, unless it is a PUBLISH whose subscription identifiers are miscounted or a DISCONNECT with a reason and without properties: then none does.", "quantifier": "every byte sequence, both string modes; every conforming supported frame", "why_tests_cant": "Soundness of the check must hold for every byte sequence, including those no one thought of.", "anchors": ["src/lib.rs Packet::read, Packet::write"]}
{"id": "C66", "title": "What is seen of a peer that keeps to MQTT 5", "statement": "When a peer sends any sequence of frames that conform to MQTT 5 (within the limit), in whatever pieces they arrive, a receiver that drains its buffer with Packet::read gets exactly one result for each frame, in order, and nothing is left in the buffer. The result is the packet that was sent, except in three cases: a DISCONNECT of remaining length 1 gives InsufficientBytes(1); with UTF-8 strings, a CONNECT whose password is not UTF-8 gives TopicNotUtf8; and a PUBLISH in which at some point no more bytes of the property section are left than subscription identifiers were read is delivered without the properties behind that point, their bytes preceding the payload. No exception affects other frames.", "quantifier": "every sequence of conforming frames of any length, every division into pieces, every limit that admits them, both string modes", "why_tests_cant": "All conforming streams and all divisions must be covered, and the exceptions must be shown to be the only ones.", "anchors": ["src/lib.rs Packet::read", "src/publish.rs PublishProperties::read", "src/disconnect.rs Disconnect::read", "src/connect.rs Login::read"]}
{"id": "C67", "title": "What a strict MQTT 5 peer sees of what is sent", "statement": "Packets within the value rules of MQTT 5 that are written one after another into an empty buffer with Packet::write (a CONNECT only as the first) form a stream of conforming MQTT 5 frames that stand for exactly these packets (a property record with nothing in it counts as no record), if and only if none of them is a DISCONNECT with a reason other than normal disconnection and without any property (no record, or a record with nothing in it). A byte stream stands for at most one sequence of MQTT 5 packets, so a peer that reads by the standard alone sees these packets in this order, complete and nothing else.", "quantifier": "every sequence of packets of any length within the value rules whose writes succeed, and every reading of the resulting bytes by the MQTT 5 grammar", "why_tests_cant": "It speaks of every sequence of packets and of every reader that follows the standard, not only of this library's own reader; uniqueness of the reading is a statement about all byte strings.", "anchors": ["src/lib.rs Packet::write", "src/disconnect.rs Disconnect::write"]}
{"id": "C68", "title": "How much a receiver has to hold", "statement": "With a limit m, InsufficientBytes(k) that leaves the buffer as it was asks for at least one byte and never beyond the longest admissible frame (buffer + k is at most m + 5; without limit 268435455 + 5), and this bound is reached for every m. So a receiver that appends at most c bytes, and only when it was asked and the buffer was left unchanged, never holds m + 5 + c bytes; one that fetches exactly what it is asked for never holds more than m + 5 bytes nor a byte behind a complete frame, and gets each frame's result after at most six calls. A receiver that appends whenever it is asked, without looking whether the call consumed a frame, has no bound: a peer can make its buffer grow forever.", "quantifier": "every byte stream, every sequence of calls and arrivals of any length, every limit, both string modes", "why_tests_cant": "The bound is an invariant of unbounded sessions with a hostile peer; the missing bound of the careless receiver is a statement about unboundedly long sessions.", "anchors": ["src/lib.rs Packet::read, check, parse_fixed_header, length", "src/disconnect.rs Disconnect::read"]}
{"id": "C69", "title": "Splitting a stream without decoding it", "statement": "A user who calls check on a buffer and, as long as it succeeds, takes frame_length() bytes off, splits the buffer in exactly one way: no byte is lost or changed, each piece is one complete admissible frame, and what is left begins with none. Decoding the pieces later, each by itself, in any order and without a limit, gives exactly the results that draining the buffer with Packet::read would have given. packet_type() of a piece's header is the kind of the packet it decodes to, and if it fails decoding fails with the same error. It does not matter in which chunks the stream arrives.", "quantifier": "every byte stream, every limit, every division into chunks, both string modes", "why_tests_cant": "It relates two ways of driving the API over all streams and all chunkings, by induction over the number of frames.", "anchors": ["src/lib.rs check, FixedHeader::frame_length, FixedHeader::packet_type, Packet::read"]}
{"id": "C70", "title": "A broker's copies of a message", "statement": "A broker reads a PUBLISH under a limit m and writes a copy of it for each subscriber: dup, QoS, retain, packet identifier, topic (when an alias is resolved) and subscription identifiers are the broker's choice, the topic alias is dropped, payload and other properties are the publisher's. Every such copy with valid choices can be written behind any content of a buffer; its remaining length exceeds m by at most 9 bytes, the topic and 5 bytes for each subscription identifier. A subscriber whose limit admits it reads exactly the copy, whatever follows, always with at most one subscription identifier, and otherwise if and only if the miscount of subscription identifiers does no harm.", "quantifier": "every received PUBLISH, every limit below the protocol's by the growth, every choice of flags, packet identifier, topic and subscription identifiers, any buffer content and following bytes, both string modes", "why_tests_cant": "Every message a hostile publisher can get through the decoder must be deliverable for every combination of the broker's choices; sizes near the limits of the length fields cannot be enumerated.", "anchors": ["src/publish.rs Publish::read, Publish::write, PublishProperties::read, PublishProperties::write", "src/lib.rs Packet::read, Packet::write"]}
{"id": "C71", "title": "Every packet that was read can be answered", "statement": "For every packet that Packet::read accepts, each answer that MQTT 5 prescribes for it (CONNACK with an MQTT 5 return code, PUBACK or PUBREC by QoS, PUBREL, PUBCOMP, SUBACK and UNSUBACK with one code per topic filter, PINGRESP; the same packet identifier, any reason codes, no properties) is written by Packet::write behind whatever is in the buffer, is not longer than the frame that it answers (in answer to PUBREC and PUBREL at most two bytes longer), and is read back by the peer as exactly that packet whatever follows it, with one exception: an UNSUBSCRIBE without topic filters is accepted although MQTT 5 forbids it, and its UNSUBACK, which has no reason codes, is written but refused by the reader. The same holds for whole conversations: answers to any of the packets read from a stream are written in their order, take at most as many bytes as were read plus two for each PUBREC and PUBREL, and are read by the peer in that order.", "quantifier": "every stream from which a packet is read, every size limit, both string modes, every packet and every MQTT 5 answer to it with every reason code, every output buffer, every following byte sequence; every sequence of packets read and every choice of answers to some of them", "why_tests_cant": "there are unboundedly many frames that can be received (any number of filters, non-minimal lengths, any property sections) and the length bound and the reading back must hold for the answer to every one", "anchors": ["src/lib.rs Packet::read, Packet::write", "src/suback.rs SubAck::read, SubAck::write", "src/unsuback.rs UnsubAck::read, UnsubAck::write", "src/unsubscribe.rs Unsubscribe::read", "src/pubrec.rs PubRec::write", "src/pubrel.rs PubRel::read, PubRel::write", "src/pubcomp.rs PubComp::write", "src/connack.rs ConnAck::write"]}
{"id": "C72", "title": "Room for payload, and messages sent in parts", "statement": "If a PUBLISH with empty payload is written with remaining length n, the same message with any payload and any valid packet identifier is written, with remaining length n plus the payload, as long as this is at most 268435455, and refused with PayloadTooLong otherwise; if it cannot be written with empty payload it cannot with any. If the message with empty payload is read back, a receiver with max_size m reads the message with payload x exactly if n + |x| <= m and otherwise refuses it for its size, leaving it in the stream. Any sequence of such parts is written one after the other and read back in order. A payload can be delivered in c parts to a receiver with limit m if and only if it has at most c * (m - n) bytes.", "quantifier": "every PUBLISH (topic, flags, properties), every payload, packet identifier, limit, number and list of parts, buffer content and following bytes, both string modes", "why_tests_cant": "payload sizes range up to 268 MB, the length field changes size three times on the way, and the number of parts is unbounded", "anchors": ["src/publish.rs Publish::len, Publish::write, Publish::read", "src/lib.rs Packet::read, Packet::write, check, write_remaining_length"]}
{"id": "C73", "title": "Leaving out reason strings and user properties", "statement": "MQTT 5 makes a sender leave out Reason String and User Properties of CONNACK, PUBACK, PUBREC, PUBREL, PUBCOMP, SUBACK, UNSUBACK and DISCONNECT if they would exceed the receiver's limit. Whatever write accepts it also accepts without them, and reports at most as many bytes. If the packet was read back correctly it is also read back correctly without them, with one exception: a DISCONNECT with a reason other than normal and neither session expiry interval nor server reference (it then comes out as a normal disconnection). PUBACK, PUBREC, PUBREL and PUBCOMP without them take at most 6 bytes and are read, with packet identifier and reason unchanged, under every limit of at least 4.", "quantifier": "every packet of every kind that write accepts, every buffer content and following bytes, every limit of at least 4, both string modes", "why_tests_cant": "any number of user properties of any length, and the length fields change size with what is left out", "anchors": ["src/connack.rs ConnAck::write, ConnAckProperties::write", "src/puback.rs PubAck::write", "src/pubrec.rs PubRec::write", "src/pubrel.rs PubRel::write", "src/pubcomp.rs PubComp::write", "src/suback.rs SubAck::write", "src/unsuback.rs UnsubAck::write", "src/disconnect.rs Disconnect::len, Disconnect::write", "src/lib.rs Packet::read, Packet::write"]}
{"id": "C74", "title": "The filters by which a topic is found", "statement": "The helpers valid_filter and matches in /repo/mod.rs: for a topic name that is not empty and does not begin with '$' or a multi-byte character, the valid filters for which matches is true are exactly those obtained by keeping each level or replacing it by '+', and cutting with '#' after any number of levels. They are all different, and there are 3 * 2^n - 1 of them for n levels. So a broker finds exactly the subscriptions to be served, in any table of valid filters, by looking these up.", "quantifier": "every topic name with any number and length of levels, every filter text, every table of subscriptions", "why_tests_cant": "the candidates double with each level, and completeness is about all filters that are not on the list", "anchors": ["mod.rs valid_filter, matches"]}
{"id": "C75", "title": "Changing the size limit", "statement": "max_size does nothing but refuse: a call is either refused with PayloadSizeLimitExceeded (the announced length, which is above the limit, and the limit; the stream unchanged) or does what it does without limit. After a refusal with announced length n, exactly the limits from n on are enough, and then the packet is read as without limit; nothing else makes the reader report this error. What is not refused is not changed by a higher limit. A receiver that changes its limit from call to call sees, apart from the refusals, exactly what it would see without limit.", "quantifier": "every stream, every pair of limits, every sequence of calls each with its own limit, both string modes", "why_tests_cant": "all streams, limits and call sequences", "anchors": ["src/lib.rs Packet::read, check"]}
{"id": "C76", "title": "A sender that takes back refused packets", "statement": "When write refuses a packet, cutting the buffer back to its old length restores it exactly. So a sender that offers any sequence of packets and cuts back after each refusal ends with the buffer that results from writing only the acceptable ones, where acceptance of a packet does not depend on the others or on the buffer; it is never stuck unless a CONNACK has an MQTT 3 return code; and a receiver reads exactly the accepted packets in order if and only if each of them survives on its own (CONNECT only first). Without cutting back, packets behind a refused one are lost.", "quantifier": "every sequence of packets, acceptable or not, every buffer content, every limit and following bytes, both string modes", "why_tests_cant": "every position and kind of failure in every sequence of packets of any length", "anchors": ["src/lib.rs Packet::write", "src/publish.rs Publish::write"]}
{"id": "C77", "title": "Requests can be answered", "statement": "Every PUBLISH that was read under a limit m and has a response topic can be answered: the PUBLISH to that topic with the same correlation data, if any, no other property, and any QoS, packet identifier (0 exactly for QoS 0) and payload such that m + 3 + the payload's length is at most 268435455 is written behind anything, has a remaining length of at most m + 3 + the payload's length, and is read back exactly, whatever follows, by every receiver whose limit admits that length.", "quantifier": "every byte input, every limit, both string modes, every payload, QoS and packet identifier, every content of the buffer and following bytes", "why_tests_cant": "every request that can be read and every response to it", "anchors": ["src/publish.rs Publish::read", "src/publish.rs Publish::write", "src/publish.rs PublishProperties"]}
{"id": "C78", "title": "Wills can be published", "statement": "The will in every CONNECT that was read under a limit m can be published when the client is lost: the PUBLISH with the will's topic, message, QoS, retain flag and all its properties but the delay, and a packet identifier that is 0 exactly for QoS 0, is written behind anything; its remaining length is at least 9 plus the length of the client identifier below m; and a receiver whose limit admits it reads exactly this message, whatever follows, if and only if the will's topic is text. (In the default build a CONNECT whose will topic is not UTF-8 is accepted, because the library keeps it as raw bytes.)", "quantifier": "every byte input, every limit, both string modes, every packet identifier, every content of the buffer and following bytes", "why_tests_cant": "every CONNECT with a will that can be read, with every combination of will properties", "anchors": ["src/connect.rs LastWill::read", "src/connect.rs LastWillProperties", "src/publish.rs Publish::write", "src/publish.rs Publish::read"]}
{"id": "C79", "title": "Subscriptions are split, combined and undone", "statement": "Of a SUBSCRIBE that was read under a limit m, any nonempty selection of the topic filters in their order, with any subscription options and any packet identifier, makes a SUBSCRIBE (without properties) that is written behind anything, has a remaining length of at most m and is read exactly by every receiver that admits it; and any nonempty selection of the filters of a SUBSCRIBE or UNSUBSCRIBE makes an UNSUBSCRIBE of which the same holds. Filters that were read at any time in any of these packets can be combined into one SUBSCRIBE or UNSUBSCRIBE if and only if 3 plus 3 (or 2) bytes and the text for each filter is at most 268435455, which is then its remaining length, and it is read exactly.", "quantifier": "every byte input, every limit, both string modes, every selection and every list of filters, options and packet identifiers, every content of the buffer and following bytes", "why_tests_cant": "every list of filters of any length from any packets that can be read", "anchors": ["src/subscribe.rs Subscribe::read", "src/subscribe.rs Subscribe::write", "src/unsubscribe.rs Unsubscribe::read", "src/unsubscribe.rs Unsubscribe::write"]}
{"id": "C80", "title": "Comparing QoS levels and fixed headers", "statement": "The derived comparisons (<, partial_cmp) of QoS and FixedHeader are total orders consistent with equality. QoS levels are in the order of their MQTT numbers, so picking the smaller of two with < gives the level of delivery. Headers returned by check are ordered by the first byte; with equal first bytes and remaining lengths in shortest form, they are in the order of the frame sizes (not so for other forms).", "quantifier": "every pair and triple of values, every two streams that check accepts, every limit", "why_tests_cant": "orders on an unbounded domain, and all pairs of frames", "anchors": ["src/lib.rs QoS", "src/lib.rs FixedHeader", "src/lib.rs check", "mod.rs QoS"]}
{"id": "C81", "title": "A log of packets survives crashes", "statement": "Packets are appended to a file, each written into an empty buffer and read back correctly; in a crash everything behind some byte is lost, then the file is read from the start as long as packets are found, and what is left is cut off. At any time, after any number of appends and crashes, the file is read as exactly the packets appended and not lost, in order, with nothing left (C81_contents). Wherever the file is cut, exactly the packets of which no byte is lost are found, in order, and what is left behind them is nothing or is answered with InsufficientBytes(n), n at least 1, without a byte consumed (C81_crash). If what is left is not cut off, the next packet appended can be lost (C81_careless).", "quantifier": "every history of appends and crashes, every place of the cut, every packet, both string modes, every size limit", "why_tests_cant": "the number of histories and crash points is unbounded", "anchors": ["src/lib.rs Packet::read", "src/lib.rs Packet::write", "src/lib.rs check"]}
{"id": "C82", "title": "Topics and filters behind a prefix", "statement": "A broker keeps tenants apart by putting a prefix p and '/' before their topic names and filters. For a prefix without wildcards: p/t is a valid topic name exactly if t is, p/f a valid filter exactly if f is valid or empty (C82_valid). If the prefix begins neither with '$' nor with a multi-byte character, p/f matches p/t exactly if the levels of f match those of t, whatever t begins with, without panic (C82_matches), so matches gives the same with and without prefix if t begins with neither (C82_same); p/f matches nothing but topics behind p, except that p/# also matches p (C82_within); of different prefixes with equally many levels, filters behind one never match topics behind the other (C82_apart). The filter $share/group/f is valid exactly if f is valid or empty, and matches no topic at all: a server must take the prefix off (C82_shared).", "quantifier": "every prefix and group without wildcards, every topic, every filter", "why_tests_cant": "the numbers of prefixes, topics and filters are unbounded", "anchors": ["mod.rs matches", "mod.rs valid_filter", "mod.rs valid_topic"]}
{"id": "C83", "title": "Topic aliases", "statement": "A sender may send a message with a topic alias that stands for its topic from then on, and later messages with this topic with the alias and an empty topic (MQTT 5, 3.3.2.3.4), in any order and with any reassignment of aliases, mixed with other packets. If every message survives alone and with its own topic, every packet was written and the receiver's limit admits it, then the receiver reads packets from which, keeping a table of aliases, it gets exactly the messages back, in order, whatever follows (C83_delivered). The alias in place of the topic makes the body shorter by the topic except for 3 or 4 bytes (C83_length). The library reads messages with alias 0, and messages with neither topic nor alias: these checks are the receiver's (C83_unchecked).", "quantifier": "every history of messages and other packets, every choice of aliases and their reassignment, both string modes, every limit", "why_tests_cant": "the number of histories is unbounded", "anchors": ["src/publish.rs Publish::read", "src/publish.rs Publish::write", "src/publish.rs PublishProperties::read", "src/publish.rs PublishProperties::write"]}
{"id": "C84", "title": "QoS 1 messages survive broken connections", "statement": "A sender that writes every unacknowledged QoS 1 message again on each new connection with Packet::write (DUP set or not), and drops a message only when Packet::read gives it the matching PUBACK, loses nothing: wherever each connection breaks, in either direction, every message no longer pending has been read by the receiver, in the order in which they were handed over, unchanged but for DUP and a present-but-empty property record; the receiver never reads anything that was not sent; and one connection that does not break delivers everything and empties the list. On each connection the receiver reads exactly what is sent for the pending messages whose bytes have all arrived, and of these exactly as many advance as whole acknowledgements, of 4 bytes each, come back.", "quantifier": "all histories: any number of messages and of connections, each cut at any byte in both directions, any choice of DUP flags, any limits of the two readers (the sender's must admit PUBACKs), both string types; each message is one that survives alone, with an identifier different from those pending", "why_tests_cant": "ranges over all histories of submissions and broken connections and all cut positions; a test runs a few", "anchors": ["src/publish.rs Publish", "src/puback.rs PubAck", "src/lib.rs Packet"]}
{"id": "C85", "title": "QoS 2 messages arrive exactly once over broken connections", "statement": "With the QoS 2 handshake built on Packet::write and Packet::read (PUBLISH until PUBREC, then PUBREL until PUBCOMP; the receiver remembers an identifier from PUBLISH to PUBREL and passes a message on only if its identifier is not remembered), wherever each connection breaks, in either direction, the messages passed on are at all times exactly the first ones handed over, each once, in order, and unchanged but for DUP and a present-but-empty property record; those completed by the sender are among them; the receiver remembers only identifiers still pending; and two rounds that do not break complete everything and leave nothing remembered. On each connection the receiver reads exactly what is sent for the pending messages whose bytes have all arrived, and of these exactly as many advance as whole acknowledgements, of 4 bytes each, come back.", "quantifier": "all histories: any number of messages, of rounds and of connections, each cut at any byte in both directions, any choice of DUP flags, any limits of the two readers that admit the 2-byte acknowledgements, both string types; each message is one that survives alone, with an identifier different from those pending", "why_tests_cant": "ranges over all histories of submissions and broken connections and all cut positions; a test runs a few", "anchors": ["src/publish.rs Publish", "src/pubrec.rs PubRec", "src/pubrel.rs PubRel", "src/pubcomp.rs PubComp", "src/lib.rs Packet"]}
{"id": "C86", "title": "QoS 1 messages survive crashes of the sender", "statement": "A sender that keeps its pending QoS 1 messages in a file - a message is appended with Packet::write, and so is each PUBACK read; after a crash the file is read with Packet::read for as long as packets are found, and the rest is cut off - loses no message that was in the file when it was last synced: at all times each is pending by what is read from the file, or the receiver has read a copy of it, however connections break and wherever crashes cut the file behind the synced place. The file may at any time be replaced by one with only the pending messages, and reads the same. It is always readable to its last byte, the receiver never reads anything that was not handed over, what one connection changes is exactly what arrived, and one unbroken connection delivers every safe message and leaves nothing pending.", "quantifier": "all histories of submissions, syncs, compactions, connections and crashes, each connection cut at any byte in both directions and each crash cutting the file at any byte not before the synced length; any choice of DUP flags, any limits of receiver and sender (the sender's must admit PUBACKs), both string types; each message is one that the receiver reads unchanged when alone, with an identifier different from those pending by the file", "why_tests_cant": "ranges over all histories and all crash points; a test runs a few", "anchors": ["src/publish.rs Publish", "src/puback.rs PubAck", "src/lib.rs Packet"]}
{"id": "C87", "title": "QoS 2 messages are passed on exactly once by a receiver that crashes", "statement": "A receiver of QoS 2 messages that has no memory but a file, to which it appends with Packet::write each PUBLISH and PUBREL that Packet::read gives it, and which it syncs before it answers, passes on every message exactly once and in order, however connections break and wherever crashes cut what was being appended: after a crash it reads the file for as long as packets are found and cuts off the rest, and what it remembers and has passed on is recomputed from these packets. The file is always readable to its last byte, nothing passed on is taken back by a crash, everything that sender and receiver do could also have happened without crashes, and two unbroken rounds complete all messages.", "quantifier": "all histories of submissions, rounds and crashes, each connection cut at any byte in both directions and each crash at any byte of what is being appended; any choice of DUP flags, any limits of the two readers (which must admit the acknowledgements), both string types; each message is one that the receiver reads unchanged when alone, with an identifier different from those pending", "why_tests_cant": "ranges over all histories and all crash points; a test runs a few", "anchors": ["src/publish.rs Publish", "src/pubrec.rs PubRec", "src/pubrel.rs PubRel", "src/pubcomp.rs PubComp", "src/lib.rs Packet"]}
{"id": "C88", "title": "QoS 2 messages are passed on exactly once though sender and receiver crash", "statement": "If sender and receiver of QoS 2 messages have no memory but files of packets written with Packet::write - the sender's holds each message handed over and each PUBREC and PUBCOMP that Packet::read gave it, the receiver's each PUBLISH and PUBREL - and each appends to its file before it goes on, then every message handed over is passed on exactly once and in order, however connections break and wherever crashes of either end cut what was being appended. Both files are always readable to their last byte, everything the two ends do could also have happened without crashes, those the sender takes for completed have been passed on, and two unbroken rounds complete all messages.", "quantifier": "all histories of submissions, rounds and crashes of either end, each connection cut at any byte in both directions and each crash at any byte of what is being appended; any choice of DUP flags, any limits of the two readers (which must admit the acknowledgements), both string types; each message is one that the receiver reads unchanged when alone, with an identifier different from those pending by the sender's file", "why_tests_cant": "ranges over all histories and all crash points of two processes; a test runs a few", "anchors": ["src/publish.rs Publish", "src/pubrec.rs PubRec", "src/pubrel.rs PubRel", "src/pubcomp.rs PubComp", "src/lib.rs Packet"]}
