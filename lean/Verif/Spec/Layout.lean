import Verif.Spec.Parts
/-
What a writer does with a packet that may not be encodable: the packet as a sequence of pieces,
which are written one after the other until one of them cannot be written.
-/
namespace Spec

open Mqtt (Bytes Packet Out)

/-- A piece of a packet. -/
inductive Piece
  /-- bytes that are written as they are -/
  | raw (w : Bytes)
  /-- a length-prefixed string or binary value -/
  | text (s : Bytes)
  /-- a Variable Byte Integer -/
  | num (n : Nat)
  /-- the packet identifier of a PUBLISH, which must not be 0 -/
  | pkid (k : UInt16)
  /-- a return code; `none` has no code in MQTT 5 -/
  | code (c : Option UInt8)
  deriving DecidableEq, Repr

/-- What writing a piece gives: bytes, an error, or (for a return code without code) a panic. -/
def Piece.written : Piece → Out Bytes
  | raw w => .ok w
  | text s => if s.length ≤ 65535 then .ok (str s) else .err .BinaryDataTooLong
  | num n => if n ≤ maxVarint then .ok (varint n) else .err .PayloadTooLong
  | pkid k => if k = 0 then .err .PacketIdZero else .ok (u16 k)
  | code (some c) => .ok [c]
  | code none => .panic

/-- The number of bytes a piece is counted for in the announced lengths: a Variable Byte Integer
for at most four, a forbidden packet identifier for none. -/
def Piece.size : Piece → Nat
  | raw w => w.length
  | text s => 2 + s.length
  | num n => min 4 (varint n).length
  | pkid k => if k = 0 then 0 else 2
  | code _ => 1

/-- Together. -/
def sizes (l : List Piece) : Nat := (l.map Piece.size).sum

/-- Writing pieces until one fails: how it ends, and the bytes written until then. -/
def emit : List Piece → Out Unit × Bytes
  | [] => (.ok (), [])
  | p :: r =>
    match p.written with
    | .ok w => ((emit r).1, w ++ (emit r).2)
    | .err e => (.err e, [])
    | .panic => (.panic, [])
    | .diverge => (.diverge, [])

/-- The value of a property in pieces. -/
def Property.valuePieces : Property → List Piece
  | .contentType v | .responseTopic v | .correlationData v | .assignedClientIdentifier v
  | .authenticationMethod v | .authenticationData v | .responseInformation v | .serverReference v
  | .reasonString v => [.text v]
  | .subscriptionIdentifier v => [.num v]
  | .userProperty k v => [.text k, .text v]
  | q => [.raw q.value]

/-- A property in pieces. -/
def Property.pieces (q : Property) : List Piece := .raw [q.id] :: q.valuePieces

/-- A property section: its length and the properties. -/
def sectionPieces (ps : List Property) : List Piece :=
  .num (sizes (ps.flatMap Property.pieces)) :: ps.flatMap Property.pieces

/-- Reason code and properties of an acknowledgement. -/
def ackPieces {α : Type} (code : UInt8) (toList : α → List Property) (o : Option α) : List Piece :=
  match o with
  | none => if code = 0 then [] else .raw [code] :: sectionPieces []
  | some p => .raw [code] :: sectionPieces (toList p)

/-- A will: properties, topic, message. -/
def willPieces (w : Mqtt.LastWill) : List Piece :=
  sectionPieces (optList LastWillProperties.toList w.properties) ++ [.text w.topic, .text w.message]

/-- A text that is left out if it is empty. -/
def optText (s : Bytes) : List Piece := if s.isEmpty then [] else [.text s]

/-- A login: user name, password. -/
def loginPieces (l : Mqtt.Login) : List Piece := optText l.username ++ optText l.password

/-- Variable header and payload in pieces. In the flags of a CONNECT there is at first only clean
start. -/
def bodyPieces : Packet → List Piece
  | .Connect c will login =>
    [.text [0x4D, 0x51, 0x54, 0x54], .raw [0x05], .raw [UInt8.ofNat (2 * bit c.clean_start)],
      .raw (u16 c.keep_alive)]
    ++ sectionPieces (optList ConnectProperties.toList c.properties) ++ [.text c.client_id]
    ++ will.elim [] willPieces ++ login.elim [] loginPieces
  | .ConnAck p =>
    [.raw [UInt8.ofNat (bit p.session_present)], .code (connAckCode p.code)]
    ++ sectionPieces (optList ConnAckProperties.toList p.properties)
  | .Publish p =>
    [.text p.topic] ++ (if p.qos = .AtMostOnce then [] else [.pkid p.pkid])
    ++ sectionPieces (optList PublishProperties.toList p.properties) ++ [.raw p.payload]
  | .PubAck p => .raw (u16 p.pkid) ::
    ackPieces (pubAckCode p.reason) PubAckProperties.toList p.properties
  | .PubRec p => .raw (u16 p.pkid) ::
    ackPieces (pubRecCode p.reason) PubRecProperties.toList p.properties
  | .PubRel p => .raw (u16 p.pkid) ::
    ackPieces (pubRelCode p.reason) PubRelProperties.toList p.properties
  | .PubComp p => .raw (u16 p.pkid) ::
    ackPieces (pubCompCode p.reason) PubCompProperties.toList p.properties
  | .Subscribe p =>
    [.raw (u16 p.pkid)] ++ sectionPieces (optList SubscribeProperties.toList p.properties)
    ++ p.filters.flatMap fun f => [.text f.path, .raw [UInt8.ofNat (filterOptions f)]]
  | .SubAck p =>
    [.raw (u16 p.pkid)] ++ sectionPieces (optList SubAckProperties.toList p.properties)
    ++ [.raw (p.return_codes.map subAckCode)]
  | .Unsubscribe p =>
    [.raw (u16 p.pkid)] ++ sectionPieces (optList UnsubscribeProperties.toList p.properties)
    ++ p.filters.map .text
  | .UnsubAck p =>
    [.raw (u16 p.pkid)] ++ sectionPieces (optList UnsubAckProperties.toList p.properties)
    ++ [.raw (p.reasons.map unsubAckCode)]
  | .PingReq => []
  | .PingResp => []
  | .Disconnect p =>
    if p.properties.isSome ∧ optList DisconnectProperties.toList p.properties = [] then []
    else ackPieces (disconnectCode p.reason_code) DisconnectProperties.toList p.properties

/-- The remaining length announced: the size of the body, except that the library announces 1
instead of 2 for a DISCONNECT without property record whose reason is not normal disconnection. -/
def announced (p : Packet) : Nat := if Overlong p then 1 else sizes (bodyPieces p)

/-- A whole packet in pieces. -/
def layout (p : Packet) : List Piece := .raw [byte1 p] :: .num (announced p) :: bodyPieces p

/-- What is still done to the buffer when everything has been written: for a CONNECT the flags are
stored, at the position they have if the packet begins at the start of the buffer. -/
def patch : Packet → Bytes → Bytes
  | .Connect c will login, b =>
    b.set (1 + (varint (announced (.Connect c will login))).length + 6 + 1)
      (UInt8.ofNat (connectFlags c will login))
  | _, b => b

/-- All that `write` does: what it returns, and the buffer afterwards. -/
def writeResult (p : Packet) (b : Bytes) : Out Nat × Bytes :=
  match emit (layout p) with
  | (.ok _, w) => (.ok (1 + (varint (announced p)).length + announced p), patch p (b ++ w))
  | (.err e, w) => (.err e, b ++ w)
  | (.panic, w) => (.panic, b ++ w)
  | (.diverge, w) => (.diverge, b ++ w)

/-- The bytes of pieces that can all be written. -/
def allWritten (L : List Piece) (w : Bytes) : Prop :=
  ∃ ws : List Bytes, L.map Piece.written = ws.map .ok ∧ w = ws.flatten

end Spec
