import Verif.Spec.Decode
/-
Vocabulary of the property statements that is not wire format: the exceptional packet values of
this library, size limits, frames, and the ways in which a user drives the API.
-/
namespace Spec

open Mqtt (Bytes StrMode Packet Out)

/-- CONNECT packets. -/
def IsConnect : Packet → Prop
  | .Connect .. => True
  | _ => False

instance : DecidablePred IsConnect := fun p => by cases p <;> unfold IsConnect <;> infer_instance

/-- CONNACK packets with one of the three MQTT 3 return codes of the Rust enum. -/
def Legacy : Packet → Prop
  | .ConnAck p => p.code = .RefusedProtocolVersion ∨ p.code = .BadClientId ∨
      p.code = .ServiceUnavailable
  | _ => False

instance : DecidablePred Legacy := fun p => by cases p <;> unfold Legacy <;> infer_instance

/-- All packets except two kinds of DISCONNECT: without property record but with a reason other
than normal disconnection, and with a property record that holds no property. -/
def Sound : Packet → Prop
  | .Disconnect d =>
    match d.properties with
    | none => d.reason_code = .NormalDisconnection
    | some p => DisconnectProperties.toList p ≠ []
  | _ => True

/-- A size limit lets a remaining length of `n` pass. -/
def Admits (max : Option Nat) (n : Nat) : Prop := ∀ m, max = some m → n ≤ m

/-- `f` is one complete frame by its fixed header: a first byte, a remaining length in one to
four bytes, and that many bytes. -/
def IsFrame (f : Bytes) : Prop :=
  ∃ b1 v body, f = b1 :: (v ++ body) ∧ VarintRep v body.length

/-- The remaining length of a frame. -/
def RemLen (f : Bytes) (n : Nat) : Prop :=
  ∃ b1 v body, f = b1 :: (v ++ body) ∧ VarintRep v body.length ∧ n = body.length

/-- Writing several packets one after the other into one buffer. -/
inductive WriteAll : List Packet → Bytes → Bytes → Prop
  | nil (b : Bytes) : WriteAll [] b b
  | cons {p : Packet} {ps : List Packet} {b b1 b2 : Bytes} {n : Nat} :
      Mqtt.Packet.write p b = (.ok n, b1) → WriteAll ps b1 b2 → WriteAll (p :: ps) b b2

/-- Reading several packets one after the other from one buffer. -/
inductive ReadAll (mode : StrMode) (max : Option Nat) : Bytes → List Packet → Bytes → Prop
  | nil (b : Bytes) : ReadAll mode max b [] b
  | cons {p : Packet} {ps : List Packet} {b b1 b2 : Bytes} :
      Mqtt.Packet.read mode max b = (.ok p, b1) → ReadAll mode max b1 ps b2 →
      ReadAll mode max b (p :: ps) b2

/-- Reading from a buffer as long as bytes are consumed: the results in order, and what is left
when a call consumes nothing. -/
inductive Drains (mode : StrMode) (max : Option Nat) : Bytes → List (Out Packet) → Bytes → Prop
  | stop {b : Bytes} : (Mqtt.Packet.read mode max b).2 = b → Drains mode max b [] b
  | step {b b1 b2 : Bytes} {o : Out Packet} {os : List (Out Packet)} :
      Mqtt.Packet.read mode max b = (o, b1) → b1 ≠ b → Drains mode max b1 os b2 →
      Drains mode max b (o :: os) b2

/-- A connection: bytes arrive in chunks and are appended to the buffer, and after each chunk the
buffer is drained. -/
inductive Feeds (mode : StrMode) (max : Option Nat) :
    Bytes → List Bytes → List (Out Packet) → Bytes → Prop
  | nil (b : Bytes) : Feeds mode max b [] [] b
  | cons {b c b1 b2 : Bytes} {cs : List Bytes} {os1 os2 : List (Out Packet)} :
      Drains mode max (b ++ c) os1 b1 → Feeds mode max b1 cs os2 b2 →
      Feeds mode max b (c :: cs) (os1 ++ os2) b2

/-- `n` is the result of the packet's `size()`, for the packet types that have this method. -/
def SizeIs (n : Nat) : Packet → Prop
  | .ConnAck p => n = p.size
  | .Publish p => n = p.size
  | .PubAck p => n = p.size
  | .PubRec p => n = p.size
  | .PubRel p => n = p.size
  | .PubComp p => n = p.size
  | .Subscribe p => n = p.size
  | .SubAck p => n = p.size
  | .Unsubscribe p => n = p.size
  | .UnsubAck p => n = p.size
  | .Disconnect p => n = p.size
  | .Connect .. | .PingReq | .PingResp => True

/-- A reader that starts by skipping `n` bytes: it panics if fewer bytes are there, and otherwise
returns a value or an error. -/
def PanicsBelow {α : Type} (n : Nat) (m : Mqtt.M α) : Prop :=
  ∀ b : Bytes, (b.length < n → (m b).1 = .panic) ∧
    (n ≤ b.length → (∃ a, (m b).1 = .ok a) ∨ (∃ e, (m b).1 = .err e))

/-- A reader that returns a value or an error on every input. -/
def NeverPanics {α : Type} (m : Mqtt.M α) : Prop :=
  ∀ b : Bytes, (∃ a, (m b).1 = .ok a) ∨ (∃ e, (m b).1 = .err e)

/-- DISCONNECT packets without properties and without property record whose reason is not normal
disconnection: the library writes one byte more than it announces. -/
def Overlong : Packet → Prop
  | .Disconnect d => d.properties = none ∧ d.reason_code ≠ .NormalDisconnection
  | _ => False

instance : DecidablePred Overlong := fun p => by cases p <;> unfold Overlong <;> infer_instance

/-- DISCONNECT packets with a property record that holds no property: the library writes them
without reason. -/
def EmptyRecord : Packet → Prop
  | .Disconnect d => ∃ q, d.properties = some q ∧ DisconnectProperties.toList q = []
  | _ => False

/-- DISCONNECT packets without properties whose reason is not normal disconnection: the library
cannot transmit them. -/
def Lossy : Packet → Prop
  | .Disconnect d => optList DisconnectProperties.toList d.properties = [] ∧
      d.reason_code ≠ .NormalDisconnection
  | _ => False

/-- Position of the flags in a CONNECT: behind the packet type, the remaining length, the protocol
name (6 bytes) and the protocol level. -/
def flagsIndex (p : Packet) : Nat := 1 + (varint (body p).length).length + 6 + 1

end Spec
