import Verif.Model.Packet
/-
The MQTT 5 wire format, written from the standard and not from the code. Only the data types of
the model (`Packet` and the structures in it) are used, none of its functions.
-/
namespace Spec

open Mqtt (Bytes)

/-- MQTT 5, 1.5.2 Two Byte Integer. -/
def u16 (x : UInt16) : Bytes := [UInt8.ofNat (x.toNat / 256), UInt8.ofNat (x.toNat % 256)]

/-- MQTT 5, 1.5.3 Four Byte Integer. -/
def u32 (x : UInt32) : Bytes :=
  [UInt8.ofNat (x.toNat / 256 ^ 3), UInt8.ofNat (x.toNat / 256 ^ 2 % 256),
   UInt8.ofNat (x.toNat / 256 % 256), UInt8.ofNat (x.toNat % 256)]

/-- MQTT 5, 1.5.5 Variable Byte Integer: base-128 digits, least significant first, all but the
last with the top bit set; shortest form. -/
def varint (n : Nat) : Bytes :=
  if n < 128 then [UInt8.ofNat n] else UInt8.ofNat (128 + n % 128) :: varint (n / 128)
termination_by n
decreasing_by omega

/-- The largest Variable Byte Integer. -/
def maxVarint : Nat := 268435455

/-- The number denoted by base-128 digits, least significant first (top bits ignored). -/
def digits : Bytes → Nat
  | [] => 0
  | b :: bs => b.toNat % 128 + 128 * digits bs

/-- `w` is a Variable Byte Integer for `n`, not necessarily the shortest: one to four bytes, the
top bit set on all but the last. -/
def VarintRep (w : Bytes) (n : Nat) : Prop :=
  ∃ init lst, w = init ++ [lst] ∧ init.length ≤ 3 ∧ (∀ b ∈ init, (128 : Nat) ≤ b.toNat) ∧
    lst.toNat < 128 ∧ n = digits w

/-- MQTT 5, 1.5.4 UTF-8 Encoded String and 1.5.6 Binary Data: length-prefixed bytes. -/
def str (s : Bytes) : Bytes := u16 (UInt16.ofNat s.length) ++ s

/-- MQTT 5, 2.2.2.2: a property with its value. -/
inductive Property
  | payloadFormatIndicator (v : UInt8)
  | messageExpiryInterval (v : UInt32)
  | contentType (v : Bytes)
  | responseTopic (v : Bytes)
  | correlationData (v : Bytes)
  | subscriptionIdentifier (v : Nat)
  | sessionExpiryInterval (v : UInt32)
  | assignedClientIdentifier (v : Bytes)
  | serverKeepAlive (v : UInt16)
  | authenticationMethod (v : Bytes)
  | authenticationData (v : Bytes)
  | requestProblemInformation (v : UInt8)
  | willDelayInterval (v : UInt32)
  | requestResponseInformation (v : UInt8)
  | responseInformation (v : Bytes)
  | serverReference (v : Bytes)
  | reasonString (v : Bytes)
  | receiveMaximum (v : UInt16)
  | topicAliasMaximum (v : UInt16)
  | topicAlias (v : UInt16)
  | maximumQos (v : UInt8)
  | retainAvailable (v : UInt8)
  | userProperty (k v : Bytes)
  | maximumPacketSize (v : UInt32)
  | wildcardSubscriptionAvailable (v : UInt8)
  | subscriptionIdentifierAvailable (v : UInt8)
  | sharedSubscriptionAvailable (v : UInt8)
  deriving DecidableEq, Repr

namespace Property

/-- MQTT 5, table 2-4: identifiers. -/
def id : Property → UInt8
  | payloadFormatIndicator _ => 0x01
  | messageExpiryInterval _ => 0x02
  | contentType _ => 0x03
  | responseTopic _ => 0x08
  | correlationData _ => 0x09
  | subscriptionIdentifier _ => 0x0B
  | sessionExpiryInterval _ => 0x11
  | assignedClientIdentifier _ => 0x12
  | serverKeepAlive _ => 0x13
  | authenticationMethod _ => 0x15
  | authenticationData _ => 0x16
  | requestProblemInformation _ => 0x17
  | willDelayInterval _ => 0x18
  | requestResponseInformation _ => 0x19
  | responseInformation _ => 0x1A
  | serverReference _ => 0x1C
  | reasonString _ => 0x1F
  | receiveMaximum _ => 0x21
  | topicAliasMaximum _ => 0x22
  | topicAlias _ => 0x23
  | maximumQos _ => 0x24
  | retainAvailable _ => 0x25
  | userProperty _ _ => 0x26
  | maximumPacketSize _ => 0x27
  | wildcardSubscriptionAvailable _ => 0x28
  | subscriptionIdentifierAvailable _ => 0x29
  | sharedSubscriptionAvailable _ => 0x2A

/-- MQTT 5, table 2-4: value types. -/
def value : Property → Bytes
  | payloadFormatIndicator v | requestProblemInformation v | requestResponseInformation v
  | maximumQos v | retainAvailable v | wildcardSubscriptionAvailable v
  | subscriptionIdentifierAvailable v | sharedSubscriptionAvailable v => [v]
  | serverKeepAlive v | receiveMaximum v | topicAliasMaximum v | topicAlias v => u16 v
  | messageExpiryInterval v | sessionExpiryInterval v | willDelayInterval v
  | maximumPacketSize v => u32 v
  | contentType v | responseTopic v | correlationData v | assignedClientIdentifier v
  | authenticationMethod v | authenticationData v | responseInformation v | serverReference v
  | reasonString v => str v
  | subscriptionIdentifier v => varint v
  | userProperty k v => str k ++ str v

/-- A property on the wire. -/
def enc (p : Property) : Bytes := p.id :: p.value

/-- The value is representable. -/
def Fits : Property → Prop
  | contentType v | responseTopic v | correlationData v | assignedClientIdentifier v
  | authenticationMethod v | authenticationData v | responseInformation v | serverReference v
  | reasonString v => v.length ≤ 65535
  | subscriptionIdentifier v => v ≤ maxVarint
  | userProperty k v => k.length ≤ 65535 ∧ v.length ≤ 65535
  | _ => True

instance : DecidablePred Fits := fun p => by cases p <;> unfold Fits <;> infer_instance

/-- The UTF-8 string values in a property (correlation and authentication data are binary). -/
def texts : Property → List Bytes
  | contentType v | responseTopic v | assignedClientIdentifier v | authenticationMethod v
  | responseInformation v | serverReference v | reasonString v => [v]
  | userProperty k v => [k, v]
  | _ => []

/-! Selectors: the value if the property is of the named kind. -/

def payloadFormatIndicator? : Property → Option UInt8
  | payloadFormatIndicator v => some v | _ => none
def messageExpiryInterval? : Property → Option UInt32
  | messageExpiryInterval v => some v | _ => none
def contentType? : Property → Option Bytes | contentType v => some v | _ => none
def responseTopic? : Property → Option Bytes | responseTopic v => some v | _ => none
def correlationData? : Property → Option Bytes | correlationData v => some v | _ => none
def subscriptionIdentifier? : Property → Option Nat
  | subscriptionIdentifier v => some v | _ => none
def sessionExpiryInterval? : Property → Option UInt32
  | sessionExpiryInterval v => some v | _ => none
def assignedClientIdentifier? : Property → Option Bytes
  | assignedClientIdentifier v => some v | _ => none
def serverKeepAlive? : Property → Option UInt16 | serverKeepAlive v => some v | _ => none
def authenticationMethod? : Property → Option Bytes
  | authenticationMethod v => some v | _ => none
def authenticationData? : Property → Option Bytes | authenticationData v => some v | _ => none
def requestProblemInformation? : Property → Option UInt8
  | requestProblemInformation v => some v | _ => none
def willDelayInterval? : Property → Option UInt32 | willDelayInterval v => some v | _ => none
def requestResponseInformation? : Property → Option UInt8
  | requestResponseInformation v => some v | _ => none
def responseInformation? : Property → Option Bytes
  | responseInformation v => some v | _ => none
def serverReference? : Property → Option Bytes | serverReference v => some v | _ => none
def reasonString? : Property → Option Bytes | reasonString v => some v | _ => none
def receiveMaximum? : Property → Option UInt16 | receiveMaximum v => some v | _ => none
def topicAliasMaximum? : Property → Option UInt16 | topicAliasMaximum v => some v | _ => none
def topicAlias? : Property → Option UInt16 | topicAlias v => some v | _ => none
def maximumQos? : Property → Option UInt8 | maximumQos v => some v | _ => none
def retainAvailable? : Property → Option UInt8 | retainAvailable v => some v | _ => none
def userProperty? : Property → Option (Bytes × Bytes)
  | userProperty k v => some (k, v) | _ => none
def maximumPacketSize? : Property → Option UInt32 | maximumPacketSize v => some v | _ => none
def wildcardSubscriptionAvailable? : Property → Option UInt8
  | wildcardSubscriptionAvailable v => some v | _ => none
def subscriptionIdentifierAvailable? : Property → Option UInt8
  | subscriptionIdentifierAvailable v => some v | _ => none
def sharedSubscriptionAvailable? : Property → Option UInt8
  | sharedSubscriptionAvailable v => some v | _ => none

end Property

/-- A property list on the wire, without the length prefix. -/
def encProps (l : List Property) : Bytes := l.flatMap Property.enc

/-- MQTT 5, 2.2.2: property length and properties. -/
def propSection (l : List Property) : Bytes := varint (encProps l).length ++ encProps l

/-- The last value of a single-valued property in a property list. -/
def last {α : Type} (sel : Property → Option α) (l : List Property) : Option α :=
  (l.filterMap sel).getLast?

/-- All values of a repeatable property, in order. -/
def all {α : Type} (sel : Property → Option α) (l : List Property) : List α := l.filterMap sel

/-- A present single-valued property. -/
def one {α : Type} (mk : α → Property) (o : Option α) : List Property := o.toList.map mk

/-- User properties. -/
def users (l : List (Bytes × Bytes)) : List Property :=
  l.map fun kv => .userProperty kv.1 kv.2

end Spec
