{
 "claims": [
  {
   "property": "C01",
   "status": "proved",
   "theorems": [
    "Props.C01_connect_round_trip"
   ],
   "note": ""
  },
  {
   "property": "C02",
   "status": "proved",
   "theorems": [
    "Props.C02_connack_round_trip"
   ],
   "note": ""
  },
  {
   "property": "C03",
   "status": "partial",
   "theorems": [
    "Props.C03_publish_round_trip_partial",
    "Props.C03_publish_one_id_partial",
    "Props.C03_publish_round_trip_iff",
    "Props.C03_publish_counterexample"
   ],
   "note": "False in full (C03_publish_counterexample): the decoder miscounts subscription identifiers. Proved: exactly the DriftSafe packets come back (iff)."
  },
  {
   "property": "C04",
   "status": "proved",
   "theorems": [
    "Props.C04_puback_round_trip",
    "Props.C04_pubrec_round_trip",
    "Props.C04_pubrel_round_trip",
    "Props.C04_pubcomp_round_trip"
   ],
   "note": ""
  },
  {
   "property": "C05",
   "status": "proved",
   "theorems": [
    "Props.C05_subscribe_round_trip",
    "Props.C05_unsubscribe_round_trip"
   ],
   "note": ""
  },
  {
   "property": "C06",
   "status": "proved",
   "theorems": [
    "Props.C06_suback_round_trip",
    "Props.C06_unsuback_round_trip"
   ],
   "note": ""
  },
  {
   "property": "C07",
   "status": "proved",
   "theorems": [
    "Props.C07_ping_write",
    "Props.C07_ping_read",
    "Props.C07_ping_by_type"
   ],
   "note": ""
  },
  {
   "property": "C08",
   "status": "partial",
   "theorems": [
    "Props.C08_disconnect_round_trip_partial",
    "Props.C08_disconnect_no_properties",
    "Props.C08_disconnect_empty_properties",
    "Props.C08_disconnect_round_trip_iff"
   ],
   "note": "False in full: a DISCONNECT with a reason other than normal disconnection and no property does not come back. Proved: exact condition (iff) and exact behaviour of the failing cases."
  },
  {
   "property": "C09",
   "status": "proved",
   "theorems": [
    "Props.C09_varint_round_trip",
    "Props.C09_varint_too_large",
    "Props.C09_varint_decoder"
   ],
   "note": ""
  },
  {
   "property": "C10",
   "status": "partial",
   "theorems": [
    "Props.C10_size",
    "Props.C10_announced",
    "Props.C10_added_iff",
    "Props.C10_size_partial",
    "Props.C10_counterexample"
   ],
   "note": "False in full (C10_counterexample): DISCONNECT with a reason and no property record announces and returns one byte less than it appends. Proved: exactly those packets fail (iff); the parts about size() and the announced length hold for all."
  },
  {
   "property": "C11",
   "status": "partial",
   "theorems": [
    "Props.C11_will_login_lost",
    "Props.C11_connect_back_iff",
    "Props.C11_connect_appends_iff",
    "Props.C11_appends_partial",
    "Props.C11_connect",
    "Props.C11_connect_iff",
    "Props.C11_counterexample"
   ],
   "note": "False in full (C11_counterexample): CONNECT patches its flags at an absolute index of the buffer. Proved: all other packets append (success or error) independently of the buffer; exact effect of CONNECT on any buffer, and iff it leaves the old content alone; iff it appends its encoding (C11_connect_appends_iff); and whatever is read back from behind other bytes has neither will nor login (C11_will_login_lost, C11_connect_back_iff)."
  },
  {
   "property": "C12",
   "status": "partial",
   "theorems": [
    "Props.C12_concat_iff",
    "Props.C12_pipeline_iff",
    "Props.C12_survives_iff",
    "Props.C12_pipeline_partial",
    "Props.C12_concat_partial",
    "Props.C12_counterexample"
   ],
   "note": "False in full (C12_counterexample). Proved exactly: with CONNECT only in first position (C12_pipeline_iff), or with CONNECT anywhere if each packet has its own buffer (C12_concat_iff), the packets come back in order if and only if each survives on its own, and C12_survives_iff says which packets do."
  },
  {
   "property": "C13",
   "status": "proved",
   "theorems": [
    "Props.C13_read_total",
    "Props.C13_while_unique",
    "Props.C13_property_loops",
    "Props.C13_filters_loop",
    "Props.C13_unsubscribe_loop",
    "Props.C13_suback_loop",
    "Props.C13_unsuback_loop"
   ],
   "note": ""
  },
  {
   "property": "C14",
   "status": "proved",
   "theorems": [
    "Props.C14_frame_consumed",
    "Props.C14_nothing_consumed"
   ],
   "note": ""
  },
  {
   "property": "C15",
   "status": "proved",
   "theorems": [
    "Props.C15_read_local"
   ],
   "note": ""
  },
  {
   "property": "C16",
   "status": "proved",
   "theorems": [
    "Props.C16_incomplete"
   ],
   "note": ""
  },
  {
   "property": "C17",
   "status": "proved",
   "theorems": [
    "Props.C17_drain_unique",
    "Props.C17_chunks",
    "Props.C17_chunking_independent",
    "Props.C17_final_error"
   ],
   "note": ""
  },
  {
   "property": "C18",
   "status": "proved",
   "theorems": [
    "Props.C18_over_limit",
    "Props.C18_within_limit"
   ],
   "note": ""
  },
  {
   "property": "C19",
   "status": "partial",
   "theorems": [
    "Props.C19_counterexample",
    "Props.C19_insufficient_partial",
    "Props.C19_consumed_iff",
    "Props.C19_unchanged_iff"
   ],
   "note": "False in full (C19_counterexample): InsufficientBytes(1) may be returned after the whole frame was consumed. Proved: exactly which streams give InsufficientBytes unchanged (C19_unchanged_iff) and exactly which frames are consumed with it (C19_consumed_iff)."
  },
  {
   "property": "C20",
   "status": "partial",
   "theorems": [
    "Props.C20_err_iff",
    "Props.C20_ok_iff",
    "Props.C20_refusal_partial",
    "Props.C20_error"
   ],
   "note": "Ok iff encodable, and every error returned applies, are proved in full; the refusal claim fails only for CONNACK with an MQTT 3 return code, where write panics (C22); C20_err_iff is exact."
  },
  {
   "property": "C21",
   "status": "partial",
   "theorems": [
    "Props.C21_never",
    "Props.C21_prefix_partial",
    "Props.C21_counterexample"
   ],
   "note": "False in full (C21_counterexample). Proved: the old content stays the beginning of the buffer; and at least the first byte of the packet is left behind it in every refused write (C21_never); C49_failed says exactly what is left."
  },
  {
   "property": "C22",
   "status": "partial",
   "theorems": [
    "Props.C22_panic_iff",
    "Props.C22_write_total_partial",
    "Props.C22_counterexample"
   ],
   "note": "False in full (C22_counterexample). Proved: panics exactly for CONNACK with one of the three MQTT 3 return codes."
  },
  {
   "property": "C23",
   "status": "proved",
   "theorems": [
    "Props.C23_injective",
    "Props.C23_puback",
    "Props.C23_pubrec",
    "Props.C23_pubrel",
    "Props.C23_pubcomp",
    "Props.C23_connack",
    "Props.C23_disconnect",
    "Props.C23_suback",
    "Props.C23_unsuback",
    "Props.C23_written"
   ],
   "note": ""
  },
  {
   "property": "C24",
   "status": "partial",
   "theorems": [
    "Props.C24_publish_exact",
    "Props.C24_publish_iff",
    "Props.C24_subscribe_iff",
    "Props.C24_last_all",
    "Props.C24_order",
    "Props.C24_connect",
    "Props.C24_will",
    "Props.C24_connack",
    "Props.C24_publish_partial",
    "Props.C24_driftSafe",
    "Props.C24_subscribe_partial",
    "Props.C24_suback",
    "Props.C24_unsubscribe",
    "Props.C24_unsuback",
    "Props.C24_disconnect",
    "Props.C24_puback",
    "Props.C24_pubrec",
    "Props.C24_pubrel",
    "Props.C24_pubcomp",
    "Props.C24_publish_exception"
   ],
   "note": "False in full only for PUBLISH and SUBSCRIBE with several subscription identifiers (C24_publish_exception). Proved for the 11 other sections in full, and for these two when the miscount has no effect (DriftSafe; always so with at most one identifier). C24_publish_exact says what is delivered for every well-formed PUBLISH; C24_publish_iff and C24_subscribe_iff exactly when it is what was sent."
  },
  {
   "property": "C25",
   "status": "partial",
   "theorems": [
    "Props.C25_iff",
    "Props.C25_foreign_partial",
    "Props.C25_foreign",
    "Props.C25_publish_exception"
   ],
   "note": "False in full for PUBLISH (C25_publish_exception: the miscount hides an unknown identifier). Proved in full for all packets but PUBLISH and SUBSCRIBE (C25_foreign), for these two exactly when it is reported (C25_iff)."
  },
  {
   "property": "C26",
   "status": "partial",
   "theorems": [
    "Props.C26_stops",
    "Props.C26_stops_read",
    "Props.C26_no_loss_iff",
    "Props.C26_consumed_partial",
    "Props.C26_exact_partial",
    "Props.C26_overrun_exception",
    "Props.C26_leak_exception"
   ],
   "note": "False in full (C26_overrun_exception, C26_leak_exception): the last property may overrun the announced length, and the miscount may leave properties unread. Proved: exactly what the 13 readers consume, and that well-formed sections are consumed exactly unless the miscount takes effect (C26_no_loss_iff), and exactly where the reader stops otherwise (C26_stops, C26_stops_read)."
  },
  {
   "property": "C27",
   "status": "proved",
   "theorems": [
    "Props.C27_texts_utf8",
    "Props.C27_modes",
    "Props.C27_refused",
    "Props.C27_accepted_iff",
    "Props.C27_binary_unchanged"
   ],
   "note": ""
  },
  {
   "property": "C28",
   "status": "proved",
   "theorems": [
    "Props.C28_well_formed",
    "Props.C28_stream"
   ],
   "note": ""
  },
  {
   "property": "C29",
   "status": "partial",
   "theorems": [
    "Props.C29_stable_iff",
    "Props.C29_stable_partial",
    "Props.C29_stable_exact",
    "Props.C29_size",
    "Props.C29_disconnect_exception",
    "Props.C29_publish_exception"
   ],
   "note": "False in full (C29_disconnect_exception, C29_publish_exception). Proved: a decoded packet is stable iff its encoding is within the protocol limit and it is not one of these two kinds (C29_stable_exact); the first is so for every frame not within 4 bytes of the limit (C29_size)."
  },
  {
   "property": "C30",
   "status": "partial",
   "theorems": [
    "Props.C30_unambiguous_partial",
    "Props.C30_counterexample",
    "Props.C30_empty_record",
    "Props.C30_all"
   ],
   "note": "False in full (C30_counterexample). Proved exactly: C30_all for all packets (no two distinct packets share bytes, and none is a beginning of another, once DISCONNECTs with an empty property record are identified with the normal disconnection), and C30_empty_record shows that those are written alike."
  },
  {
   "property": "C31",
   "status": "partial",
   "theorems": [
    "Props.C31_conformance_partial",
    "Props.C31_iff",
    "Props.C31_connect_iff",
    "Props.C31_counterexample"
   ],
   "note": "False in full (C31_counterexample). Proved for all packets but the two kinds of DISCONNECT of C08 and CONNECT into a non-empty buffer; C31_iff and C31_connect_iff say exactly which writes conform."
  },
  {
   "property": "C32",
   "status": "proved",
   "theorems": [
    "Props.C32_accepted_only",
    "Props.C32_connect",
    "Props.C32_protocol"
   ],
   "note": ""
  },
  {
   "property": "C33",
   "status": "proved",
   "theorems": [
    "Props.C33_accepted",
    "Props.C33_read",
    "Props.C33_qos3",
    "Props.C33_zero_id",
    "Props.C33_write",
    "Props.C33_write_zero_id"
   ],
   "note": ""
  },
  {
   "property": "C34",
   "status": "proved",
   "theorems": [
    "Props.C34_accepted",
    "Props.C34_read",
    "Props.C34_options_total",
    "Props.C34_refused",
    "Props.C34_write"
   ],
   "note": ""
  },
  {
   "property": "C35",
   "status": "proved",
   "theorems": [
    "Props.C35_type",
    "Props.C35_invalid_type",
    "Props.C35_valid_type",
    "Props.C35_empty_body"
   ],
   "note": ""
  },
  {
   "property": "C36",
   "status": "proved",
   "theorems": [
    "Props.C36_no_amplification",
    "Props.C36_bounded",
    "Props.C36_stream"
   ],
   "note": ""
  },
  {
   "property": "C37",
   "status": "proved",
   "theorems": [
    "Props.C37_typed_readers",
    "Props.C37_boundary",
    "Props.C37_publish_reader",
    "Props.C37_part_readers",
    "Props.C37_disconnect_reader"
   ],
   "note": ""
  },
  {
   "property": "C38",
   "status": "partial",
   "theorems": [
    "Props.C38_never",
    "Props.C38_short",
    "Props.C38_reason",
    "Props.C38_disconnect",
    "Props.C38_disconnect_exception",
    "Props.C38_short_forms_partial"
   ],
   "note": "False in full (C38_disconnect_exception): a DISCONNECT with remaining length 1 is never accepted (C38_never). Proved for all other short forms."
  },
  {
   "property": "C39",
   "status": "partial",
   "theorems": [
    "Props.C39_iff",
    "Props.C39_payload_partial",
    "Props.C39_exact_partial",
    "Props.C39_exception"
   ],
   "note": "False in full (C39_exception). Proved: the payload is the unchanged rest of the frame behind topic, id and section as read (C26); for well-formed frames exactly which payload is delivered (C24_publish_exact) and when it is the one sent (C39_iff)."
  },
  {
   "property": "C40",
   "status": "partial",
   "theorems": [
    "Props.C40_table_properties",
    "Props.C40_table_reasons",
    "Props.C40_table_flags",
    "Props.C40_table_values",
    "Props.C40_read_iff",
    "Props.C40_unambiguous",
    "Props.C40_conforming_partial",
    "Props.C40_conforming_iff",
    "Props.C40_no_misdecoding_partial",
    "Props.C40_counterexample"
   ],
   "note": "Soundness and completeness for the grammar of the accepted language are proved in full (C40_read_iff, C40_unambiguous). Against strict MQTT 5 the claim is false (C40_counterexample): exactly three kinds of conforming frames are not decoded to their packet (C40_conforming_iff): DISCONNECT of remaining length 1, PUBLISH in which the identifier miscount takes effect, and CONNECT with a non-UTF-8 password under the default feature."
  },
  {
   "property": "C41",
   "status": "partial",
   "theorems": [
    "Props.C41_wildcards",
    "Props.C41_valid_filter",
    "Props.C41_matches_partial",
    "Props.C41_matches_any",
    "Props.C41_matches_panics",
    "Props.C41_matches_self",
    "Props.C41_deviation"
   ],
   "note": "mod.rs is not compiled into the crate; modelled as written. valid_topic, has_wildcards, valid_filter proved in full. matches: proved for every topic and filter (C41_matches_any), with the MQTT rule for every valid filter and every topic whose first character is ASCII; other topics panic (C41_matches_panics, exact)."
  },
  {
   "property": "C42",
   "status": "proved",
   "theorems": [
    "Props.C42_errors"
   ],
   "note": ""
  },
  {
   "property": "C43",
   "status": "partial",
   "theorems": [
    "Props.C43_written_conforms_partial",
    "Props.C43_counterexample",
    "Props.C43_iff"
   ],
   "note": "False in full (C43_counterexample). Proved for all packets but the two kinds of DISCONNECT of C08 and CONNECT into a non-empty buffer; C43_iff says exactly when (DISCONNECT with a reason and without properties is the only exception besides such a CONNECT)."
  },
  {
   "property": "C44",
   "status": "proved",
   "theorems": [
    "Props.C44_exact_error",
    "Props.C44_one_verdict"
   ],
   "note": ""
  },
  {
   "property": "C45",
   "status": "proved",
   "theorems": [
    "Props.C45_typed_readers",
    "Props.C45_check_ok",
    "Props.C45_check_err",
    "Props.C45_check_then_read"
   ],
   "note": ""
  },
  {
   "property": "C46",
   "status": "proved",
   "theorems": [
    "Props.C46_records",
    "Props.C46_filter_write",
    "Props.C46_filters",
    "Props.C46_will_write",
    "Props.C46_will_read",
    "Props.C46_no_will",
    "Props.C46_login_write",
    "Props.C46_login_read"
   ],
   "note": ""
  },
  {
   "property": "C47",
   "status": "proved",
   "theorems": [
    "Props.C47_publish_qos0",
    "Props.C47_publish_needs_id",
    "Props.C47_publish_with_id",
    "Props.C47_subscribe",
    "Props.C47_filter",
    "Props.C47_unsubscribe",
    "Props.C47_acks",
    "Props.C47_disconnect",
    "Props.C47_defaults",
    "Props.C47_publish_default",
    "Props.C47_string"
   ],
   "note": ""
  },
  {
   "property": "C48",
   "status": "proved",
   "theorems": [
    "Props.C48_header",
    "Props.C48_disconnect_flags"
   ],
   "note": ""
  },
  {
   "property": "C49",
   "status": "proved",
   "theorems": [
    "Props.C49_write",
    "Props.C49_ok",
    "Props.C49_failed",
    "Props.C49_panic",
    "Props.C49_too_long"
   ],
   "note": ""
  },
  {
   "property": "C50",
   "status": "proved",
   "theorems": [
    "Props.C50_header",
    "Props.C50_sections",
    "Props.C50_read",
    "Props.C50_typed",
    "Props.C50_frame_length",
    "Props.C50_written"
   ],
   "note": ""
  },
  {
   "property": "C51",
   "status": "proved",
   "theorems": [
    "Props.C51_in_order",
    "Props.C51_no_errors",
    "Props.C51_complete",
    "Props.C51_can_finish"
   ],
   "note": ""
  },
  {
   "property": "C52",
   "status": "proved",
   "theorems": [
    "Props.C52_size",
    "Props.C52_announced",
    "Props.C52_write",
    "Props.C52_write_panics",
    "Props.C52_sharp"
   ],
   "note": ""
  },
  {
   "property": "C53",
   "status": "proved",
   "theorems": [
    "Props.C53_read",
    "Props.C53_write"
   ],
   "note": ""
  },
  {
   "property": "C54",
   "status": "partial",
   "theorems": [
    "Props.C54_loop_partial",
    "Props.C54_covered",
    "Props.C54_written",
    "Props.C54_total",
    "Props.C54_counterexample"
   ],
   "note": "False in full (C54_counterexample): after a consumed frame that breaks off in a property section the loop waits with complete frames in its buffer, and the outcome depends on the chunking. Proved for all other streams (C54_loop_partial; C54_covered shows that the two cases are exhaustive and exclusive)."
  },
  {
   "property": "C55",
   "status": "proved",
   "theorems": [
    "Props.C55_same",
    "Props.C55_linear",
    "Props.C55_waiting",
    "Props.C55_waiting_exact",
    "Props.C55_session",
    "Props.C55_counts",
    "Props.C55_entries"
   ],
   "note": ""
  },
  {
   "property": "C56",
   "status": "proved",
   "theorems": [
    "Props.C56_forward",
    "Props.C56_exception"
   ],
   "note": ""
  },
  {
   "property": "C57",
   "status": "proved",
   "theorems": [
    "Props.C57_texts",
    "Props.C57_exception"
   ],
   "note": ""
  },
  {
   "property": "C58",
   "status": "proved",
   "theorems": [
    "Props.C58_same",
    "Props.C58_linear",
    "Props.C58_any_outcome",
    "Props.C58_counts",
    "Props.C58_session"
   ],
   "note": ""
  },
  {
   "property": "C59",
   "status": "proved",
   "theorems": [
    "Props.C59_flags_write",
    "Props.C59_flags_read",
    "Props.C59_id_write",
    "Props.C59_no_id",
    "Props.C59_id_read"
   ],
   "note": ""
  },
  {
   "property": "C60",
   "status": "proved",
   "theorems": [
    "Props.C60_exact",
    "Props.C60_within",
    "Props.C60_over"
   ],
   "note": ""
  },
  {
   "property": "C61",
   "status": "proved",
   "theorems": [
    "Props.C61_frames_iff",
    "Props.C61_isolation"
   ],
   "note": ""
  },
  {
   "property": "C62",
   "status": "proved",
   "theorems": [
    "Props.C62_sound",
    "Props.C62_covers",
    "Props.C62_refl",
    "Props.C62_literal"
   ],
   "note": ""
  },
  {
   "property": "C63",
   "status": "proved",
   "theorems": [
    "Props.C63_written",
    "Props.C63_relay_iff",
    "Props.C63_fixpoint"
   ],
   "note": ""
  },
  {
   "property": "C64",
   "status": "proved",
   "theorems": [
    "Props.C64_records",
    "Props.C64_will_login",
    "Props.C64_filters",
    "Props.C64_write_records",
    "Props.C64_write_parts"
   ],
   "note": ""
  },
  {
   "property": "C65",
   "status": "proved",
   "theorems": [
    "Props.C65_values",
    "Props.C65_iff",
    "Props.C65_sound",
    "Props.C65_exists",
    "Props.C65_topics",
    "Props.C65_shared",
    "Props.C65_unchecked"
   ],
   "note": ""
  },
  {
   "property": "C66",
   "status": "proved",
   "theorems": [
    "Props.C66_frame",
    "Props.C66_stream"
   ],
   "note": ""
  },
  {
   "property": "C67",
   "status": "proved",
   "theorems": [
    "Props.C67_unique",
    "Props.C67_stream_iff",
    "Props.C67_peer",
    "Props.C67_exception"
   ],
   "note": ""
  },
  {
   "property": "C68",
   "status": "proved",
   "theorems": [
    "Props.C68_asked",
    "Props.C68_sharp",
    "Props.C68_bound",
    "Props.C68_exactly",
    "Props.C68_careless",
    "Props.C68_calls"
   ],
   "note": ""
  },
  {
   "property": "C69",
   "status": "proved",
   "theorems": [
    "Props.C69_split",
    "Props.C69_lossless",
    "Props.C69_same",
    "Props.C69_type",
    "Props.C69_chunks"
   ],
   "note": ""
  },
  {
   "property": "C70",
   "status": "proved",
   "theorems": [
    "Props.C70_written",
    "Props.C70_delivered_iff",
    "Props.C70_delivered"
   ],
   "note": ""
  },
  {
   "property": "C71",
   "status": "proved",
   "theorems": [
    "Props.C71_written",
    "Props.C71_read_iff",
    "Props.C71_conversation",
    "Props.C71_exception",
    "Props.C71_longer"
   ],
   "note": ""
  },
  {
   "property": "C72",
   "status": "proved",
   "theorems": [
    "Props.C72_room",
    "Props.C72_no_room",
    "Props.C72_read",
    "Props.C72_parts",
    "Props.C72_count"
   ],
   "note": ""
  },
  {
   "property": "C73",
   "status": "proved",
   "theorems": [
    "Props.C73_written",
    "Props.C73_survives_iff",
    "Props.C73_exception",
    "Props.C73_acks"
   ],
   "note": ""
  },
  {
   "property": "C74",
   "status": "proved",
   "theorems": [
    "Props.C74_candidates",
    "Props.C74_count",
    "Props.C74_lookup"
   ],
   "note": ""
  },
  {
   "property": "C75",
   "status": "proved",
   "theorems": [
    "Props.C75_only_refuses",
    "Props.C75_raise",
    "Props.C75_monotone",
    "Props.C75_history"
   ],
   "note": ""
  },
  {
   "property": "C76",
   "status": "proved",
   "theorems": [
    "Props.C76_restored",
    "Props.C76_sender",
    "Props.C76_total",
    "Props.C76_received",
    "Props.C76_careless"
   ],
   "note": ""
  },
  {
   "property": "C77",
   "status": "proved",
   "theorems": [
    "Props.C77_response"
   ],
   "note": ""
  },
  {
   "property": "C78",
   "status": "proved",
   "theorems": [
    "Props.C78_published",
    "Props.C78_exception"
   ],
   "note": ""
  },
  {
   "property": "C79",
   "status": "proved",
   "theorems": [
    "Props.C79_split",
    "Props.C79_undo",
    "Props.C79_join",
    "Props.C79_join_unsubscribe"
   ],
   "note": ""
  },
  {
   "property": "C80",
   "status": "proved",
   "theorems": [
    "Props.C80_qos",
    "Props.C80_header",
    "Props.C80_first_byte",
    "Props.C80_size",
    "Props.C80_exception"
   ],
   "note": ""
  },
  {
   "property": "C81",
   "status": "proved",
   "theorems": [
    "Props.C81_contents",
    "Props.C81_crash",
    "Props.C81_careless"
   ],
   "note": ""
  },
  {
   "property": "C82",
   "status": "proved",
   "theorems": [
    "Props.C82_valid",
    "Props.C82_matches",
    "Props.C82_same",
    "Props.C82_within",
    "Props.C82_apart",
    "Props.C82_shared"
   ],
   "note": ""
  },
  {
   "property": "C83",
   "status": "proved",
   "theorems": [
    "Props.C83_delivered",
    "Props.C83_length",
    "Props.C83_unchecked"
   ],
   "note": ""
  },
  {
   "property": "C84",
   "status": "proved",
   "theorems": [
    "Props.C84_broken",
    "Props.C84_connection",
    "Props.C84_safe",
    "Props.C84_only",
    "Props.C84_done"
   ],
   "note": ""
  },
  {
   "property": "C85",
   "status": "proved",
   "theorems": [
    "Props.C85_round",
    "Props.C85_once",
    "Props.C85_memory",
    "Props.C85_done"
   ],
   "note": ""
  },
  {
   "property": "C86",
   "status": "proved",
   "theorems": [
    "Props.C86_file",
    "Props.C86_safe",
    "Props.C86_only",
    "Props.C86_connection",
    "Props.C86_compact",
    "Props.C86_done"
   ],
   "note": ""
  },
  {
   "property": "C87",
   "status": "proved",
   "theorems": [
    "Props.C87_file",
    "Props.C87_once",
    "Props.C87_keeps",
    "Props.C87_done"
   ],
   "note": ""
  },
  {
   "property": "C88",
   "status": "proved",
   "theorems": [
    "Props.C88_files",
    "Props.C88_once",
    "Props.C88_done"
   ],
   "note": ""
  }
 ]
}