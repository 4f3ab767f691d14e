# Formal model of mqtt-bytes-v5 in Lean 4

## Layout

* `lean/Verif/Model/*.lean` – the model, one file per Rust source file, one definition per Rust
  function (loops and their `match` are split off). Every definition cites the lines of `/repo`
  it models and says where it simplifies.
* `lean/Verif/Spec/*.lean` – specifications, independent of the model's code. They use the model
  only for its data types (`Packet` and its fields, `Err`, `Out`) and, in `Api`, for naming the
  entry points a user calls.
  `Wire` (varints, big-endian integers, strings), `Utf8` (encoding of lists of `Char`), `Codes`
  (reason code tables), `Grammar` and `PropSets` (properties as a list of identifier/value pairs),
  `Packet` (`Spec.encode`: MQTT 5 encoding of a packet), `Decode` (grammar of the accepted
  frames), `Mqtt5` (strict MQTT 5 conformance, written from the standard), `Content`, `Decoded`,
  `Fields`, `Errors`, `Diagnose` (which error for which defect), `Topic` (topic filters over
  characters), `Parts`, `Layout` (the pieces of a frame), `Transport`, `Waiting`, `While`, `Work`, `WriteWork`
  (executions), `Cut`, `Drift`, `Complete`, `Forward`.
* `lean/Verif/Proofs/*.lean` – helper lemmas.
* `lean/Verif/Props/*.lean` – the property theorems `Cnn_…` and, beside each, an `example` that
  shows that a concrete case meets its hypotheses.
* `seeded/LOG.jsonl` – edits of the model that imitate bugs, and the theorems they break.

## Trusted base

* **Lean 4.33's kernel.** No axioms are added; there is no compiled evaluation in any proof.
  `decide +kernel` (evaluation by the kernel) is used for finite tables (all 256 bytes).
* **Axioms.** Every property theorem depends on a subset of `propext`, `Classical.choice`,
  `Quot.sound`, Lean's standard axioms:
  * only `propext`: `C13_while_unique`, `C23_injective`, `C26_leak_exception`,
    `C40_table_reasons`, `C65_shared`, `C80_exception`;
  * `propext`, `Quot.sound`: `C03_publish_counterexample`, `C07_ping_write`,
    `C09_varint_too_large`, `C10_counterexample`, `C11_counterexample`, `C12_counterexample`,
    `C13_filters_loop`, `C13_suback_loop`, `C13_unsuback_loop`, `C13_unsubscribe_loop`,
    `C19_counterexample`, `C21_counterexample`, `C22_counterexample`, `C24_last_all`,
    `C26_no_loss_iff`, `C26_overrun_exception`, `C29_publish_exception`, `C30_counterexample`,
    `C31_counterexample`, `C37_boundary`, `C40_counterexample`, `C40_table_flags`,
    `C40_table_properties`, `C46_filter_write`, `C46_login_write`, `C46_no_will`, `C47_filter`,
    `C47_publish_default`, `C54_counterexample`, `C55_counts`, `C55_same`, `C56_exception`,
    `C57_exception`, `C58_same`, `C71_exception`, `C71_longer`, `C73_exception`, `C74_count`,
    `C76_careless`, `C81_careless`, `C83_unchecked`;
  * all three: every other one.
* **Reading of the source.** Nothing here runs the Rust code. The model is a transcription; the
  citations in its comments tie the two. In addition `Validation.lean` replays every unit test of
  the crate and its benchmark on the model (the kernel evaluates them).
* **External code, modelled by its documentation** (`Model/Basic.lean`, first two sections):
  `bytes::{Buf, BufMut, Bytes, BytesMut}` – `get_u8/u16/u32`, `put_*`, `advance`, `split_to`,
  indexing – including when they panic; `core::str::from_utf8` – the table of
  `run_utf8_validation`, proved in C27 to accept exactly the encodings of lists of Unicode scalar
  values; `str`, `Vec` and `Option` of the standard library.

## What is modelled

| source | model | covered |
|---|---|---|
| `src/lib.rs` | `Model/Basic.lean`, `Model/Packet.lean` | `Packet`, `PacketType`, `PropertyType`, `FixedHeader` and its methods, `property`, `check`, `parse_fixed_header`, `length`, `read_*`, `write_*`, `len_len`, `QoS`, `qos`, `Error` (its texts in `Model/Display.lean`), `mqtt_string_eq`, `mqtt_string_new`; derived comparisons in `Model/Order.lean`; both string representations |
| `src/connect.rs`, `connack.rs`, `publish.rs`, `puback.rs`, `pubrec.rs`, `pubrel.rs`, `pubcomp.rs`, `subscribe.rs`, `suback.rs`, `unsubscribe.rs`, `unsuback.rs`, `ping.rs`, `disconnect.rs` | one file each | every function: constructors, `len`, `size`, `read`, `write`, code tables, all property sets; the `Default` impls in `Model/New.lean` |
| `mod.rs` (not part of the crate: no `mod` declaration leads to it) | `Model/Topic.lean` | `valid_topic`, `valid_filter`, `has_wildcards`, `matches`, as written |

Not modelled: the test modules; derived `Clone`, `Debug` (no
logic of this code base); the remaining types of `mod.rs` (duplicates of `lib.rs` or declarations
without code).

## How strong the statements are

C53 says that the specification files determine `read` and `write` on every input: an edit of the
model that changes what a caller can observe of these two functions makes C40, C44 or C49 false,
and with them C53. The seeded errors (`seeded/LOG.jsonl`) are in line with this: each of them that
changes the behaviour (a witness input found by comparing the edited with the original model is
recorded where there is one) breaks the build. The other properties are consequences that a user
may want to rely on without reading the grammar.

## Modelling decisions

* `u8/u16/u32` are `UInt8/UInt16/UInt32`. `usize` is `Nat`. For the decoder this is proved to be
  exact on targets with at least 32 bits (C50). The encoder adds up the lengths of the packet's
  fields (`Model/UsizeEnc.lean`, `Model/UsizeWrite.lean`): exact for builds with and without overflow checks, unless the
  fields are shared `Bytes` whose total length is not representable (C52).
  The readers of single packet types do not overflow for made-up headers either (C50_typed);
  `FixedHeader::new(_, usize::MAX, _)` does, and C50_frame_length says when.
* `Bytes`, `BytesMut`, `&[u8]`, `slice::Iter<u8>` are `List UInt8`: contents only. Capacity,
  sharing and allocation failure are not modelled.
* A Rust function taking `&mut Bytes`/`&mut BytesMut` and returning `Result<T, Error>` is a
  value of `M T := Bytes → Out T × Bytes`. The buffer is returned also on error, so partial
  writes and partial reads are visible. `Out` is `ok`, `err`, `panic` (a Rust panic: the
  `bytes` crate's assertions, slice indexing, `unreachable!`) or `diverge` (a `while` loop that
  exceeds the model's fuel). C13, C22 and C37 show where `panic` and `diverge` cannot occur; the
  fuel is therefore no restriction: each loop with fuel has exactly the outcomes of a fuel-free
  `while` loop (`Spec/While.lean`, C13_property_loops and the four theorems after it).
* `MqttString` is its byte sequence. The build feature is a parameter `StrMode`: `utf8`
  (default, `boxed_string`, `cow_string`) or `binary` (`binary_string`). In `utf8` mode the
  Rust type guarantees valid UTF-8, so the packets that exist in Rust are those satisfying
  `Spec.StringsOk mode`; this is an explicit hypothesis where it is needed.
* Packet structs are Lean structures with the same fields in the same order; `Vec` is `List`.
* The thirteen property loops have the same shape in Rust; the model has the loop once
  (`readProps`) and each `match` separately (`X.step`), with each `cursor +=` as written.
* `Model/Cost.lean` repeats the readers with a counter of loop iterations (C55),
  `Model/CostWrite.lean` the writers (C58). Not counted: the
  copying and UTF-8 validation of one string by the standard library, linear in its bytes, and the
  reallocation of `Vec`s.
* There is no concurrency, no I/O and no persistent state in this crate: a user's history is the
  sequence of calls on a buffer. The histories quantified over are lists of packets written
  (C12), and byte streams arriving in arbitrary chunks (C17).

## The accepted language

`Spec.BodyRep` (C40, C44) is a grammar of what this library accepts. It deviates from MQTT 5:

1. remaining length and property lengths may be encoded with more bytes than necessary;
2. the low four bits of the first byte are ignored, except for PUBLISH and DISCONNECT;
3. bytes behind the last field of a packet are ignored (all kinds without a list or payload at
   the end); PINGREQ and PINGRESP may have a body;
4. the last property may extend beyond the announced length of its section;
5. in PUBLISH and SUBSCRIBE each subscription identifier is counted one byte too long, so that a
   section with several of them may end early;
6. a single-valued property may occur more than once: the last value counts;
7. packet identifier 0 is accepted except in PUBLISH; UNSUBSCRIBE may have no filter;
8. reserved bits of subscription options and bit 0 of the CONNECT flags are ignored;
9. boolean properties and `payload_format_indicator` may have any byte value; values that MQTT 5
   forbids (receive maximum 0, topic alias 0, subscription identifier 0, …) are accepted;
10. texts may contain U+0000, topics may contain wildcards;
11. a password needs to be UTF-8 unless `binary_string` is selected; the will topic need not be;
12. a DISCONNECT of remaining length 1 is refused;
13. a CONNECT with empty user name and password counts as one without login;
14. DUP with QoS 0, Session Present with an error code, and authentication data without an
    authentication method are accepted (and written: C65_unchecked);
15. empty topics without an alias and ill-formed filters are accepted (and written);
16. ill-formed filters of shared subscriptions are accepted, by `valid_filter` too (C65_shared), and
    so is No Local with them;
17. a message may be other than UTF-8 though its payload format indicator says it is.

`Spec.Conforms` (C40, C43, C65–C67) is the standard: all of these are excluded there. Only AUTH,
the order of packets in a session, and which side may send a packet or property are not expressed
in it.

## Defects found

Where the English property is false of the code, there is a theorem with a concrete
counterexample, and an exact account of what does hold.

1. DISCONNECT with a reason other than normal disconnection and no property record: `len` is 1 but
   two bytes follow. The frame cannot be read back, and a stray zero byte stays in the stream (C08,
   C10, C12, C31, C43). With an empty property record: the reason is lost (C08, C30). DISCONNECT
   with remaining length 1, which MQTT 5 allows, is refused (C38).
2. `Connect::write` patches its flags at an absolute index: written behind other packets it
   corrupts them and sends wrong flags (C11, C12).
3. Cursor drift for subscription identifiers in PUBLISH and SUBSCRIBE (C03, C24–C26, C39, C40).
4. `ConnAck::write` panics on three of the enum's codes (C22).
5. A failed write leaves the bytes written so far in the buffer (C21).
6. `InsufficientBytes` may be returned after the frame was consumed, so that a caller who waits for
   more data loses a frame, and may wait although complete frames are in his buffer (C19, C54).
7. The property section is not confined to its announced length (C26).
8. Re-encoding a decoded packet is not always stable (C29).
9. `mod.rs`: `matches` slices `topic[..1]` and panics on topics that begin with a multi-byte
   character (C41).
10. The text of `InvalidProtocolLevel` does not show the level (C57). Acknowledgements of remaining
   length 3 are written with a property length of 0 that is not needed (C56).

## Properties

"counterexample" means that the English statement is false of the code; the theorem list in
`MANIFEST.json` names the counterexample and the strongest true statements.

| id | result | how |
|----|--------|-----|
| C01, C02, C04–C06 | proved | `write` on the empty buffer then `read` equals `ok (normalize p)`; per packet kind through the property-section lemma (C24) and the wire lemma (C31) |
| C03, C08 | counterexample; exact condition (iff) | the same, with the side condition `DriftSafe`, resp. `Sound` |
| C07 | proved | evaluation; recognition by case analysis of `Packet::read` |
| C09 | proved | arithmetic induction on the base-128 representation |
| C10, C31 | counterexample; iff | `write p buf = (ok n, buf ++ Spec.encode p)`, `n = size p = length` |
| C11 | counterexample; iff | corollary of C31 for all kinds but CONNECT; exact effect of CONNECT on any buffer; Props/Behind.lean: a CONNECT behind other bytes loses will and login, always, and comes back iff its encoding was appended unharmed |
| C12 | counterexample; partial | induction over the packet list from C15 and C01–C08; CONNECT only in first position |
| C13 | proved | a compositional predicate (no panic, no divergence, result is a suffix of the input) closed under bind, proved for each reader; fuel argument for the loops |
| C14, C15 | proved | case analysis of `Packet::read`, frame split lemma |
| C16, C18 | proved | lemmas on `length` under prefixes |
| C17 | proved | the driver drains all complete frames after each chunk; induction over chunks |
| C19 | counterexample; iff | restriction of C44 to this error, with its own specification of where a body breaks off (`Spec/Cut.lean`) |
| C20 | counterexample (C22); iff | iff over `Spec.Encodable`; refusal fails exactly where write panics (C22) |
| C21 | counterexample; exact account | old content is still a prefix; every refused write leaves something (from C49) |
| C22 | counterexample; iff | legacy CONNACK codes |
| C23 | proved | finite tables: case analysis on the constructor, `decide +kernel` over all 256 bytes |
| C24, C25, C26 | counterexample; exact account | generic loop lemma, instantiated 13 times; for sections with subscription identifiers, `Spec/Drift.lean` says where the library stops, and `Props/Drift.lean` what is then delivered |
| C27 | proved | validator proved equivalent to "is the encoding of a list of `Char`" |
| C28 | proved | postcondition of each reader, by inversion |
| C29 | counterexample; iff | C28 + round trip |
| C30 | counterexample; partial | corollary of round trip and C15 |
| C32–C35 | proved | case analysis and bit tables |
| C36 | proved | length accounting from C40 |
| C37 | proved | the C13 predicate at the level of typed readers |
| C38, C39 | counterexample; partial | from C40 |
| C40 | grammar: iff. MQTT 5: counterexample; exact list of refused conforming frames | inversion lemmas for every reader: `read f = ok p ↔ Rep f p`; `Spec.Conforms` against `Rep` |
| C41 | partial | the model is on UTF-8 bytes like the code, the specification on characters and levels |
| C42 | proved | error table per packet type |
| C43 | counterexample; partial | `Spec.encode` conforms, plus C31 |
| C44 | proved | `read f = err e ↔ FrameErr f e`: inversion lemmas for every reader, for errors |
| C45 | proved | typed readers and `check` related to `Packet::read` by skipping the header |
| C46 | proved | public readers and writers of the parts of packets, from the lemmas behind C24 and C31 |
| C47 | proved | constructors and defaults, and what writing them does |
| C48 | proved | which parts of a fixed header matter |
| C49 | proved | a packet as a list of pieces (`Spec.layout`); every writer is proved to emit them until one is refused |
| C50 | proved | the decoder's arithmetic (`Model/Usize.lean`) and the decoder with it (`Model/UsizeRead.lean`) repeated with overflow checks and proved equal |
| C51 | proved | a transition system of sender, channel and receiver (`Spec/Transport.lean`); inductive invariant: both buffers together hold the frames of the packets not yet received |
| C52 | proved | the functions `len` and `size` repeated with 2^w arithmetic, checked or wrapping (`Model/UsizeEnc.lean`), and the whole encoder with these (`Model/UsizeWrite.lean`); each partial sum is at most the total |
| C53 | proved | `Spec/Complete.lean` collects C40, C44 and C49; totality (C13, C22) gives uniqueness |
| C54 | counterexample; exact domain | the loop as an inductive relation over buffer and bytes to come (`Spec/Waiting.lean`); induction over its runs, from C19, C44 and C15 |
| C55 | proved | the decoder repeated with a counter of loop iterations (`Model/Cost.lean`), proved to compute the same (C55_same) and to count each list entry (C55_counts); every loop body consumes at least one byte of its own |
| C56 | proved | from C40 (conforming frames), C28 and C49; the encoding of a conforming packet's content is compared with the frame property by property (`Proofs/Forward.lean`) |
| C57 | proved | `Model/Display.lean`; decimal representation is injective, and the texts differ within their constant beginnings or have the same |
| C58 | proved | the encoder repeated with a counter of loop iterations (`Model/CostWrite.lean`), proved to compute the same (C58_same); a compositional estimate that charges the iterations of `len` to the bytes written later |
| C59 | proved | write: from the layout of C49, of which only one piece depends on the fields; read: from the grammar (C40) and the diagnosis (C44), in which the flags and the identifier occur in one place each (`Spec/Patch.lean`) |
| C60 | proved | the remaining length written is in shortest form, so the header size is a function of the total size (`Spec/SizeLimit.lean`); then C18 |
| C61 | proved | induction over the drain (`Drains`) in one direction and over the list of frames in the other, from C14 (a complete frame is consumed, nothing else is) and C15 (the result depends on the frame only) |
| C62 | proved | transitivity of the matching loop for soundness; for completeness, topics made from `f` with a level that does not occur in `g` in the place of '+', and none or many of them in the place of '#' |
| C63 | proved | induction over the packets read; that a decoded packet is in normal form and at most 4 bytes longer than its frame (C29), that it survives exactly outside the two exceptions, and C12 for the sequence |
| C64 | proved | the grammars and diagnoses of C40/C44 stated for the public part readers themselves (`ReadsExactly`), and the pieces of C49 for the part writers (`AppendsPieces`) |
| C65 | proved | case analysis over `Body5` for the values; C43 for what is written, with decoded packets in normal form, for soundness; C56 and C29 for existence (`Spec/Strict.lean`) |
| C66 | proved | C40 for the supported frames and the two refusals, C26/C24 for the point where the section reader stops, restated for sections in shortest form (`Spec/Peer.lean`); C17 and C61 for streams |
| C67 | proved | uniqueness of MQTT 5 frames (C40/C45's injectivity of frames, plus PUBLISH bodies for the payload); C43's iff frame by frame over the pieces of `WriteAll`, by induction on the packets (`Spec/Outgoing.lean`) |
| C68 | proved | C19's exact conditions for the bound; invariants by induction over receivers with an arbitrary fetching policy (`Spec/Buffering.lean`): length, and that no complete frame has bytes behind it; C16 for the prefixes of a frame; induction over the length field for the calls; DISCONNECT of remaining length 1 (C38) for the receiver without bound |
| C69 | proved | C45's exact conditions for `check`; induction over the splits; C61 and C17 for the comparison with draining; C35 for the packet type (`Spec/Splitting.lean`) |
| C70 | proved | what is known of a decoded packet (C29's facts) carried over to the copy, with a count of the bytes of its property section; C20 for writing, C03's iff for reading (`Spec/Deliver.lean`) |
| C71 | proved | `Spec/Reply.lean` lists the MQTT 5 answers; `C71_written` (every answer is written, length bound), `C71_longer` (the two bytes are needed), `C71_read_iff` (read back exactly iff the packet answered is not an UNSUBSCRIBE without filters), `C71_exception`, `C71_conversation` (sequences of packets and answers, by induction); from the layout of what is read and the round trip |
| C72 | proved | `Spec/Room.lean` (the message with another identifier and payload); `C72_room`/`C72_no_room` (what can be written), `C72_read` (what a receiver with a limit sees, exactly), `C72_parts` (any list of parts is written and read in order, by induction), `C72_count` (the number of parts needed, both directions); from C20, the round trip and C18 |
| C73 | proved | `Spec/Trim.lean` (the packet without Reason String and User Properties); `C73_written` (accepted, not longer), `C73_survives_iff` (still read back, exactly unless a DISCONNECT has nothing else to tell), `C73_exception`, `C73_acks` (at most 6 bytes, read under every limit of at least 4); the property list of the shorter packet is a sublist, with C12's and C20's exact conditions |
| C74 | proved | `Spec/Route.lean` (the candidate filters of a topic name, a list); `C74_candidates` (exactly the valid filters for which `matches` is true), `C74_count` (all different, 3 * 2^n - 1), `C74_lookup` (the served subscriptions of any table); induction over the levels, on top of C41 |
| C75 | proved | `C75_only_refuses`, `C75_raise`, `C75_monotone` from C18 and the error table (C42: no other source of the error); `C75_history` by induction over the calls (`Spec/Limits.lean`) |
| C76 | proved | `Spec/Undo.lean` (a sender that cuts the buffer back after a refusal); `C76_restored` from C21, `C76_sender` and `C76_total` by induction over the packets offered, with C20 and C22; `C76_received` from C12; `C76_careless` shows that cutting back is needed |
| C77 | proved | `Spec/Respond.lean` (the response to a request); `C77_response` from the facts of a successful read (C12, C20, C22): the response is encodable and survives because its only property is one of the request's |
| C78 | proved | `Spec/Will.lean` (the message of a will); `C78_published` from the facts of a successful read, with C12, C20, C22: the message's properties are among the will's, and its body is shorter; `C78_exception` is a run |
| C79 | proved | `Spec/Subs.lean` (packets without properties, size of a list of filters); the size needed from the grammar of accepted bodies (C40, C44), the rest from C12, C20, C22 |
| C80 | proved | `Model/Order.lean` (the derived comparisons); case analysis for the laws, C45 and the Variable Byte Integer lemmas for headers |
| C81 | proved | A relation `Log` (Spec/Log.lean) describes the life of a log file by API calls only: append a packet whose frame was written into an empty buffer and reads back, or lose everything behind some place, read the rest as long as packets are found (`Drains`) and cut off what is left. Invariant by induction on the history: the file is the concatenation of the frames of the surviving packets. A cut falls into exactly one frame (`cut_frames`), the frames before are found (C61), the torn one is recognised as incomplete (C16). |
| C82 | proved | Texts are lists of characters, `under p t` is p/t (Spec/Mount.lean). The levels of p/t are those of p followed by those of t (induction over p); the matching loop strips equal leading levels (induction over the levels of p); then C41_matches_any and C41_valid_filter for both sides. |
| C83 | proved | `Aliased` (Spec/Alias.lean) relates the messages of an application to the packets a sender makes of them, with the table of aliases as it develops; `resolve` is the receiver's table. Each packet sent survives alone because the message does (the alias stands before the subscription identifiers, so the miscount is not changed: `alias_driftSafe`), C12_pipeline_iff gives the stream, induction over the history the resolution. |
| C84 | proved | Spec/Retry.lean models the history of a sender and a receiver as a transition system: a message is handed over, or a connection runs on which all pending messages are written (each with DUP set or not), the receiver gets the first k bytes, drains them and writes PUBACKs, of which the sender gets the first j bytes and drops what is acknowledged. Invariant by induction over the history: pending identifiers differ, the messages handed over are those done followed by those pending, and the done ones are a subsequence of those read. One connection: C84_broken by cutting the byte string into frames (log_facts of C81). |
| C85 | proved | Spec/Once.lean adds to C84's history the QoS 2 handshake: the receiver remembers identifiers until PUBREL, the sender keeps a message until PUBCOMP, and each round is cut at any byte in both directions. Invariant by induction over the history: the pending messages are those with their PUBREC, then those read, then those not read, and the receiver remembers the identifiers of the second group and at most some of the first; the round on the wire by C84_broken. |
| C86 | proved | Spec/Outbox.lean models a sender whose pending messages are kept in a file of written packets (a PUBLISH per message handed over, a PUBACK per acknowledgement read), with the number of bytes synced, as a transition system: submit, sync, compaction, a connection cut at any byte in both directions, and a crash that keeps any prefix of the file not shorter than what was synced; recovery reads packets until none is found and cuts off the rest. Invariant: the file is the concatenation of writes of PUBLISHes and PUBACKs; the synced part is a prefix of them; for every prefix of them, every message in it is pending by replay or has been read by the receiver. Uses C84_broken for the file and for both directions of a connection. |
| C87 | proved | Spec/Journal.lean models a receiver whose only memory is a file of the packets it has read (written back with write, synced before the answers are written), and a sender as for C85, as a transition system: submit, a complete round cut at any byte in both directions, and a round in which the receiver crashes before the sync is complete, which keeps any part of what was appended and sends no answer; recovery reads packets until none is found and cuts off the rest. Refinement: with handle on the packets in the file taken for the receiver's memory, every history is one of C85 (a crash is a round of which fewer packets arrive and no answer comes back), so C85's theorems carry over. Uses C84_broken for the file and both directions. |
| C88 | proved | Spec/Exchange.lean: as for C87, and the sender too keeps a file, to which it appends each message handed over and each PUBREC and PUBCOMP read; either end may crash whenever it appends to its file, and then keeps any part of what it was appending. The sender's state is recomputed from its file by recall, the receiver's by handle. Refinement into C87 and so into C85: a crash of the sender in a round is a round from which fewer whole acknowledgements come back; a crash while a message is handed over is no step at all. |
