import Verif.Proofs.LayoutPackets
import Verif.Props.Samples
/-
C49: all that `write` does, for every packet and every buffer: the packet is a sequence of pieces,
they are written in order, and the first one that cannot be written decides the error and what is
left in the buffer.
-/
namespace Props

open Mqtt Spec

/-- C49: the result of `write` and the buffer afterwards, for every packet (CONNECT and packets
that cannot be encoded included) and every buffer. -/
theorem C49_write (p : Packet) (b : Bytes) : p.write b = writeResult p b := write_result p b

/-- C49: `write` succeeds exactly if every piece can be written; then all of them are appended and
for a CONNECT the flags are stored. -/
theorem C49_ok (p : Packet) (b b' : Bytes) (n : Nat) :
    p.write b = (.ok n, b') ↔ ∃ w, allWritten (layout p) w ∧
      n = 1 + (varint (announced p)).length + announced p ∧ b' = patch p (b ++ w) := by
  rw [write_result, writeResult]
  constructor
  · intro h
    rcases hx : emit (layout p) with ⟨o, w⟩
    rw [hx] at h
    cases o with
    | ok u =>
      simp only [Prod.mk.injEq, Out.ok.injEq] at h
      exact ⟨w, emit_ok.1 hx, h.1.symm, h.2.symm⟩
    | _ => simp at h
  · rintro ⟨w, h, rfl, rfl⟩
    rw [emit_ok.2 h]

/-- C49: `write` returns the error `e` exactly if the first piece that cannot be written is refused
with `e`; the pieces before it stay in the buffer, behind what was there, and nothing else. -/
theorem C49_failed (p : Packet) (b b' : Bytes) (e : Err) :
    p.write b = (.err e, b') ↔ ∃ L x R w, layout p = L ++ x :: R ∧ allWritten L w ∧
      x.written = .err e ∧ b' = b ++ w := by
  rw [write_result, writeResult]
  constructor
  · intro h
    rcases hx : emit (layout p) with ⟨o, w⟩
    rw [hx] at h
    cases o with
    | err e' =>
      simp only [Prod.mk.injEq, Out.err.injEq] at h
      obtain ⟨rfl, rfl⟩ := h
      obtain ⟨L, x, R, h1, h2, h3⟩ := (emit_stop (by simp)).1 hx
      refine ⟨L, x, R, w, h1, h2, ?_, rfl⟩
      cases hw : x.written <;> rw [hw] at h3 <;> simp [wrapped] at h3
      rw [h3]
    | _ => simp at h
  · rintro ⟨L, x, R, w, h1, h2, h3, rfl⟩
    rw [(emit_stop (o := .err e) (by simp)).2 ⟨L, x, R, h1, h2, by rw [h3]; rfl⟩]

/-- C49: the same for panics: only a return code without MQTT 5 code can be the piece. -/
theorem C49_panic (p : Packet) (b b' : Bytes) :
    p.write b = (.panic, b') ↔ ∃ L R w, layout p = L ++ .code none :: R ∧ allWritten L w ∧
      b' = b ++ w := by
  rw [write_result, writeResult]
  constructor
  · intro h
    rcases hx : emit (layout p) with ⟨o, w⟩
    rw [hx] at h
    cases o with
    | panic =>
      simp only [Prod.mk.injEq, true_and] at h
      obtain ⟨L, x, R, h1, h2, h3⟩ := (emit_stop (by simp)).1 hx
      refine ⟨L, R, w, ?_, h2, h.symm⟩
      have : x = .code none := by
        unfold Piece.written at h3
        split at h3
        · simp [wrapped] at h3
        · split at h3 <;> simp [wrapped] at h3
        · split at h3 <;> simp [wrapped] at h3
        · split at h3 <;> simp [wrapped] at h3
        · simp [wrapped] at h3
        · rfl
      rw [← this, h1]
    | _ => simp at h
  · rintro ⟨L, R, w, h1, h2, rfl⟩
    rw [(emit_stop (o := .panic) (by simp)).2 ⟨L, .code none, R, h1, h2, rfl⟩]

/-- C49: a packet whose announced length is too big is refused at once, whatever else may be wrong
with it; its first byte stays in the buffer. -/
theorem C49_too_long (p : Packet) (b : Bytes) (h : maxVarint < announced p) :
    p.write b = (.err .PayloadTooLong, b ++ [byte1 p]) :=
  (C49_failed p b _ _).2 ⟨[.raw [byte1 p]], .num (announced p), bodyPieces p, [byte1 p], rfl,
    ⟨[[byte1 p]], rfl, rfl⟩, by simp [Piece.written, Nat.not_le.2 h], rfl⟩

/-- A PUBLISH with packet identifier 0 and an unrepresentable subscription identifier: the packet
identifier is the first piece that is refused, and the topic stays in the buffer. -/
example : Packet.write (.Publish {
      dup := false, qos := .AtLeastOnce, retain := false, topic := [0x61], pkid := 0, payload := [7],
      properties := some {
        payload_format_indicator := none, message_expiry_interval := none, topic_alias := none,
        response_topic := none, correlation_data := none, user_properties := [],
        subscription_identifiers := [268435456], content_type := none } }) [9] =
    (.err .PacketIdZero, [9, 0x32, 10, 0, 1, 0x61]) := by
  decide +kernel

/-- With a valid packet identifier the property is the first. -/
example : Packet.write (.Publish {
      dup := false, qos := .AtLeastOnce, retain := false, topic := [0x61], pkid := 5, payload := [7],
      properties := some {
        payload_format_indicator := some 1, message_expiry_interval := none, topic_alias := none,
        response_topic := none, correlation_data := none, user_properties := [],
        subscription_identifiers := [3, 268435456], content_type := none } }) [9] =
    (.err .PayloadTooLong, [9, 0x32, 16, 0, 1, 0x61, 0, 5, 9, 1, 1, 11, 3, 11]) := by
  decide +kernel

/-- The layout of the first of them. -/
example : layout (.Publish {
      dup := false, qos := .AtLeastOnce, retain := false, topic := [0x61], pkid := 0, payload := [7],
      properties := none }) =
    [.raw [0x32], .num 5, .text [0x61], .pkid 0, .num 0, .raw [7]] := by
  have h0 : varint 0 = [0] := by rw [varint, if_pos (by omega)]; rfl
  simp [layout, announced, Overlong, bodyPieces, byte1, sectionPieces, optList, sizes, Piece.size,
    qosNum, bit, h0]

/-- A DISCONNECT whose reason string is too long: three pieces and the property's identifier. -/
example (s : Bytes) (hs : s.length = 70000) (b : Bytes) :
    Packet.write (.Disconnect {
      reason_code := .ServerBusy,
      properties := some {
        session_expiry_interval := none, reason_string := some s, user_properties := [],
        server_reference := none } }) b =
    (.err .BinaryDataTooLong, b ++ ([0xE0] ++ varint 70007 ++ [0x89] ++ varint 70003 ++ [0x1F])) := by
  have v1 : (varint 70003).length = 3 := by
    have := varint_length_le (n := 70003) (k := 2) (by omega)
    have := varint_length_ge (n := 70003) (k := 2) (by omega)
    omega
  have ha : announced (.Disconnect {
      reason_code := .ServerBusy,
      properties := some {
        session_expiry_interval := none, reason_string := some s, user_properties := [],
        server_reference := none } }) = 70007 := by
    simp [announced, Overlong, bodyPieces, DisconnectProperties.toList, optList, ackPieces,
      sectionPieces, sizes, Piece.size, Property.pieces, Property.valuePieces, hs, Property.id, v1,
      one, users]
  rw [C49_failed]
  refine ⟨[.raw [0xE0], .num 70007, .raw [0x89], .num 70003, .raw [0x1F]], .text s, [], _, ?_,
    ⟨[[0xE0], varint 70007, [0x89], varint 70003, [0x1F]], ?_, rfl⟩, ?_, ?_⟩
  · simp [layout, ha, bodyPieces, DisconnectProperties.toList, optList, ackPieces,
      sectionPieces, sizes, Piece.size, Property.pieces, Property.valuePieces, hs, Property.id, one,
      users, byte1, disconnectCode]
  · simp [Piece.written, maxVarint]
  · simp [Piece.written, hs]
  · simp

end Props
