import Verif.Spec.Api
/-
Which defect of the input causes which error. The body of a packet is a sequence of fields; the
error belongs to the first field (in the order in which the fields stand on the wire, and with
the exceptions stated below) that is not well-formed, and carries the offending value.
-/
namespace Spec

open Mqtt (Bytes StrMode Err)

/-- The input starts with a defective field (`E`), or with a good one for some `a` (`R`) and the
defect lies behind it (`F a`). -/
def Field {α : Type} (R : α → Bytes → Prop) (E : Bytes → Err → Prop) (F : α → Bytes → Err → Prop)
    (w : Bytes) (e : Err) : Prop :=
  E w e ∨ ∃ a u r, w = u ++ r ∧ R a u ∧ F a r e

/-! ### Fields -/

/-- Good fields. -/
def ByteRep (x : UInt8) (w : Bytes) : Prop := w = [x]
def TwoRep (x : UInt16) (w : Bytes) : Prop := w = u16 x
def BinRep (s w : Bytes) : Prop := s.length ≤ 65535 ∧ w = str s
def TextRep (mode : StrMode) (s w : Bytes) : Prop := TextField mode s ∧ w = str s

/-- The input ends before or within a number of `n` bytes. -/
def NumErr (n : Nat) (w : Bytes) (e : Err) : Prop := w.length < n ∧ e = .MalformedPacket

/-- No Variable Byte Integer: the input ends within it, or its fourth byte has a successor. -/
def VarErr (w : Bytes) (e : Err) : Prop :=
  (w.length ≤ 3 ∧ (∀ b ∈ w, (128 : Nat) ≤ b.toNat) ∧ e = .InsufficientBytes 1) ∨
  (∃ v r, w = v ++ r ∧ v.length = 4 ∧ (∀ b ∈ v, (128 : Nat) ≤ b.toNat) ∧
    e = .MalformedRemainingLength)

/-- No length-prefixed bytes: no length, or fewer bytes than it says; the error then carries the
announced length. -/
def BinErr (w : Bytes) (e : Err) : Prop :=
  NumErr 2 w e ∨ ∃ n r, w = u16 n ++ r ∧ r.length < n.toNat ∧ e = .BoundaryCrossed n.toNat

/-- No text: no length-prefixed bytes, or ill-formed ones. -/
def TextErr (mode : StrMode) (w : Bytes) (e : Err) : Prop :=
  BinErr w e ∨ ∃ s r, w = str s ++ r ∧ s.length ≤ 65535 ∧ ¬ TextOk mode s ∧ e = .TopicNotUtf8

/-! ### Property sections -/

/-- MQTT 5, table 2-4: types of property values. -/
inductive ValueType
  | byte | two | four | varint | binary | text | pair

/-- MQTT 5, table 2-4: the type of the value behind an identifier. -/
def valueType (id : UInt8) : Option ValueType :=
  if id ∈ ([0x01, 0x17, 0x19, 0x24, 0x25, 0x28, 0x29, 0x2A] : List UInt8) then some .byte
  else if id ∈ ([0x13, 0x21, 0x22, 0x23] : List UInt8) then some .two
  else if id ∈ ([0x02, 0x11, 0x18, 0x27] : List UInt8) then some .four
  else if id = 0x0B then some .varint
  else if id ∈ ([0x09, 0x16] : List UInt8) then some .binary
  else if id ∈ ([0x03, 0x08, 0x12, 0x15, 0x1A, 0x1C, 0x1F] : List UInt8) then some .text
  else if id = 0x26 then some .pair
  else none

/-- A defective property value. -/
def ValErr (mode : StrMode) : ValueType → Bytes → Err → Prop
  | .byte => NumErr 1
  | .two => NumErr 2
  | .four => NumErr 4
  | .varint => VarErr
  | .binary => BinErr
  | .text => TextErr mode
  | .pair => Field (TextRep mode) (TextErr mode) fun _ => TextErr mode

/-- No property that may occur here: no identifier, a foreign one (which the error carries), or a
defective value. -/
def PropertyErr (mode : StrMode) (ids : List UInt8) (w : Bytes) (e : Err) : Prop :=
  NumErr 1 w e ∨ ∃ x r, w = x :: r ∧
    ((x ∉ ids ∧ e = .InvalidPropertyType x) ∨
     (x ∈ ids ∧ ∃ ty, valueType x = some ty ∧ ValErr mode ty r e))

/-- A defective property section: its length is defective, or after some properties, with the
announced length not yet reached, comes no further one. -/
def SecErr (mode : StrMode) (ids : List UInt8) (w : Bytes) (e : Err) : Prop :=
  VarErr w e ∨ ∃ v plen ps ws c r, w = v ++ (ws ++ r) ∧ VarintRep v plen ∧
    Run plen 0 ps ws c ∧ c < plen ∧ (∀ p ∈ ps, p.Ok mode ids) ∧ PropertyErr mode ids r e

/-! ### Bodies -/

/-- After some good list items comes a defective one. -/
def ListErr {α : Type} (R : α → Bytes → Prop) (E : Bytes → Err → Prop) (w : Bytes) (e : Err) :
    Prop :=
  ∃ xs u r, w = u ++ r ∧ SeqRep R xs u ∧ r ≠ [] ∧ E r e

/-- PUBACK, PUBREC, PUBREL, PUBCOMP; the reason code is looked at after the properties. -/
def AckErr (mode : StrMode) (ids : List UInt8) (known : UInt8 → Prop) : Bytes → Err → Prop :=
  Field TwoRep (NumErr 2) fun _ w e => ∃ x t, w = x :: t ∧
    ((t = [] ∧ ¬ known x ∧ e = .InvalidConnectReturnCode x) ∨
     (t ≠ [] ∧ Field (PropSec mode ids) (SecErr mode ids)
       (fun _ _ e => ¬ known x ∧ e = .InvalidConnectReturnCode x) t e))

/-- CONNACK; the reason code is looked at after the properties. -/
def ConnAckErr (mode : StrMode) : Bytes → Err → Prop :=
  Field ByteRep (NumErr 1) fun _ => Field ByteRep (NumErr 1) fun x =>
    Field (PropSec mode ConnAckProperties.allowed) (SecErr mode ConnAckProperties.allowed)
      fun _ _ e => (∀ r, connAckCode r ≠ some x) ∧ e = .InvalidConnectReturnCode x

/-- SUBACK and UNSUBACK: at least one reason code, all known. -/
def CodesErr (mode : StrMode) (ids : List UInt8) (known : UInt8 → Prop) : Bytes → Err → Prop :=
  Field TwoRep (NumErr 2) fun _ => Field (PropSec mode ids) (SecErr mode ids) fun _ w e =>
    (w = [] ∧ e = .MalformedPacket) ∨
    ∃ xs x t, w = xs ++ x :: t ∧ (∀ y ∈ xs, known y) ∧ ¬ known x ∧
      e = .InvalidSubscribeReasonCode x

/-- A subscription: bits 5-4 of the options may not be 3, nor bits 1-0. -/
def FilterErr (mode : StrMode) : Bytes → Err → Prop :=
  Field (TextRep mode) (TextErr mode) fun _ => Field ByteRep (NumErr 1) fun o _ e =>
    (o.toNat / 16 % 4 = 3 ∧ e = .InvalidRetainForwardRule 3) ∨
    (o.toNat / 16 % 4 ≠ 3 ∧ o.toNat % 4 = 3 ∧ e = .InvalidQoS 3)

/-- SUBSCRIBE: at least one subscription. -/
def SubscribeErr (mode : StrMode) : Bytes → Err → Prop :=
  Field TwoRep (NumErr 2) fun _ =>
    Field (PropSec mode SubscribeProperties.allowed) (SecErr mode SubscribeProperties.allowed)
      fun _ w e => (w = [] ∧ e = .EmptySubscription) ∨ ListErr (FilterRep mode) (FilterErr mode) w e

/-- UNSUBSCRIBE. -/
def UnsubscribeErr (mode : StrMode) : Bytes → Err → Prop :=
  Field TwoRep (NumErr 2) fun _ =>
    Field (PropSec mode UnsubscribeProperties.allowed) (SecErr mode UnsubscribeProperties.allowed)
      fun _ => ListErr (TextRep mode) (TextErr mode)

/-- PUBLISH: first the QoS in the first byte, then topic, packet identifier if the QoS is not 0,
properties. -/
def PublishErr (mode : StrMode) (b1 : Nat) (w : Bytes) (e : Err) : Prop :=
  (b1 / 2 % 4 = 3 ∧ e = .InvalidQoS 3) ∨
  (b1 / 2 % 4 = 0 ∧ Field (TextRep mode) (TextErr mode)
    (fun _ => SecErr mode PublishProperties.allowed) w e) ∨
  ((b1 / 2 % 4 = 1 ∨ b1 / 2 % 4 = 2) ∧ Field (TextRep mode) (TextErr mode)
    (fun _ => Field TwoRep (NumErr 2) fun id w e =>
      (id = 0 ∧ e = .PacketIdZero) ∨ (id ≠ 0 ∧ SecErr mode PublishProperties.allowed w e)) w e)

/-- The will of a CONNECT: without it the bits of its QoS and retain flag must be 0. The QoS is
looked at after the will has been read. -/
def WillErr (mode : StrMode) (flags : Nat) (w : Bytes) (e : Err) : Prop :=
  (flags / 4 % 2 = 0 ∧ flags / 8 % 8 ≠ 0 ∧ e = .IncorrectPacketFormat) ∨
  (flags / 4 % 2 = 1 ∧
    Field (PropSec mode LastWillProperties.allowed) (SecErr mode LastWillProperties.allowed)
      (fun _ => Field BinRep BinErr fun _ => Field BinRep BinErr fun _ _ e =>
        flags / 8 % 4 = 3 ∧ e = .InvalidQoS 3) w e)

/-- A text that is present only if its flag is 1. -/
def FlagErr (mode : StrMode) (flag : Nat) (w : Bytes) (e : Err) : Prop :=
  flag = 1 ∧ TextErr mode w e

/-- CONNECT: the protocol name is looked at after the protocol level has been read. -/
def ConnectErr (mode : StrMode) : Bytes → Err → Prop :=
  Field (TextRep mode) (TextErr mode) fun name => Field ByteRep (NumErr 1) fun level w e =>
    (name ≠ [0x4D, 0x51, 0x54, 0x54] ∧ e = .InvalidProtocol) ∨
    (name = [0x4D, 0x51, 0x54, 0x54] ∧ level ≠ 5 ∧ e = .InvalidProtocolLevel level) ∨
    (name = [0x4D, 0x51, 0x54, 0x54] ∧ level = 5 ∧
      Field ByteRep (NumErr 1) (fun flags => Field TwoRep (NumErr 2) fun _ =>
        Field (PropSec mode ConnectProperties.allowed) (SecErr mode ConnectProperties.allowed)
          fun _ => Field (TextRep mode) (TextErr mode) fun _ =>
            Field (WillRep mode flags.toNat) (WillErr mode flags.toNat) fun _ =>
              Field (FlagField mode (flags.toNat / 128 % 2)) (FlagErr mode (flags.toNat / 128 % 2))
                fun _ => FlagErr mode (flags.toNat / 64 % 2)) w e)

/-- DISCONNECT: first the flags in the first byte, then the reason code, then the properties,
which may not be missing if there is a reason code. -/
def DisconnectErr (mode : StrMode) (b1 : Nat) (w : Bytes) (e : Err) : Prop :=
  (b1 % 16 ≠ 0 ∧ e = .MalformedPacket) ∨
  (b1 % 16 = 0 ∧ ∃ x t, w = x :: t ∧
    (((∀ r, disconnectCode r ≠ x) ∧ e = .InvalidConnectReturnCode x) ∨
     ((∃ r, disconnectCode r = x) ∧ SecErr mode DisconnectProperties.allowed t e)))

/-- The defects of a body, by packet type. -/
def BodyErr (mode : StrMode) (b1 : Nat) (body : Bytes) (e : Err) : Prop :=
  match b1 / 16 with
  | 1 => ConnectErr mode body e
  | 2 => ConnAckErr mode body e
  | 3 => PublishErr mode b1 body e
  | 4 => AckErr mode PubAckProperties.allowed (fun x => ∃ r, pubAckCode r = x) body e
  | 5 => AckErr mode PubRecProperties.allowed (fun x => ∃ r, pubRecCode r = x) body e
  | 6 => AckErr mode PubRelProperties.allowed (fun x => ∃ r, pubRelCode r = x) body e
  | 7 => AckErr mode PubCompProperties.allowed (fun x => ∃ r, pubCompCode r = x) body e
  | 8 => SubscribeErr mode body e
  | 9 => CodesErr mode SubAckProperties.allowed (fun x => ∃ r, subAckCode r = x) body e
  | 10 => UnsubscribeErr mode body e
  | 11 => CodesErr mode UnsubAckProperties.allowed (fun x => ∃ r, unsubAckCode r = x) body e
  | 14 => DisconnectErr mode b1 body e
  | _ => False

/-- The defects of a complete frame: no such packet type, no body where there must be one, a
defective body. -/
def FrameErr (mode : StrMode) (b1 : Nat) (body : Bytes) (e : Err) : Prop :=
  ((b1 / 16 = 0 ∨ b1 / 16 = 15) ∧ e = .InvalidPacketType (UInt8.ofNat (b1 / 16))) ∨
  (1 ≤ b1 / 16 ∧ b1 / 16 ≤ 11 ∧ body = [] ∧ e = .PayloadRequired) ∨
  ((body ≠ [] ∨ b1 / 16 = 14) ∧ BodyErr mode b1 body e)

/-- The defects of the start of a stream: the fixed header or the rest of the frame is still
missing, the remaining length is ill-formed or above the limit. -/
def HeadErr (max : Option Nat) (b : Bytes) (e : Err) : Prop :=
  (b.length < 2 ∧ e = .InsufficientBytes (2 - b.length)) ∨
  (∃ b1 w, b = b1 :: w ∧ w ≠ [] ∧ VarErr w e) ∨
  (∃ b1 v n s, b = b1 :: (v ++ s) ∧ VarintRep v n ∧
    ((∃ m, max = some m ∧ m < n ∧ e = .PayloadSizeLimitExceeded n m) ∨
     (Admits max n ∧ s.length < n ∧ e = .InsufficientBytes (n - s.length))))

end Spec
