import Verif.Spec.Content
/-
Bodies of CONNECT, PUBLISH and SUBSCRIBE spelled out field by field, for C32-C34.
-/
namespace Spec

open Mqtt (Bytes StrMode Packet QoS)

/-- Bit `i` of a byte. -/
def bitAt (x : UInt8) (i : Nat) : Bool := x.toNat / 2 ^ i % 2 = 1

/-- MQTT 5, 3.1.2 and 3.1.3: body of a CONNECT with the given connect flags. Bit 2 governs the
will, bit 7 the user name, bit 6 the password; `s` and `ws` are the property sections, `trail` is
whatever follows. -/
def connectBody (flags : UInt8) (keepAlive : UInt16)
    (s clientId ws topic message user pass trail : Bytes) : Bytes :=
  [0, 4, 0x4D, 0x51, 0x54, 0x54, 5, flags] ++ u16 keepAlive ++ s ++ str clientId
  ++ (if bitAt flags 2 then ws ++ str topic ++ str message else [])
  ++ (if bitAt flags 7 then str user else []) ++ (if bitAt flags 6 then str pass else []) ++ trail

/-- The login in such a CONNECT: fields without flag are empty, and two empty fields are no
login. -/
def connectLogin (flags : UInt8) (user pass : Bytes) : Option Mqtt.Login :=
  let u := if bitAt flags 7 then user else []
  let p := if bitAt flags 6 then pass else []
  if u = [] ∧ p = [] then none else some { username := u, password := p }

/-- MQTT 5, 3.3.2: body of a PUBLISH; `id` are the bytes of the packet identifier, if any. -/
def publishBody (topic id s payload : Bytes) : Bytes := str topic ++ id ++ s ++ payload

/-- MQTT 5, 3.8.3.1: subscription options in a byte; bits 7 and 6 are reserved. -/
def OptionsAre (o : UInt8) (f : Mqtt.Filter) : Prop :=
  qosNum f.qos = o.toNat % 4 ∧ f.nolocal = bitAt o 2 ∧ f.preserve_retain = bitAt o 3 ∧
  (f.retain_forward_rule = .OnEverySubscribe ↔ o.toNat / 16 % 4 = 0) ∧
  (f.retain_forward_rule = .OnNewSubscribe ↔ o.toNat / 16 % 4 = 1) ∧
  (f.retain_forward_rule = .Never ↔ o.toNat / 16 % 4 = 2)

/-- The payload of a SUBSCRIBE: topic filters, each followed by an options byte. -/
def filterItems (items : List (Bytes × UInt8)) : Bytes :=
  items.flatMap fun i => str i.1 ++ [i.2]

/-- The filters in a packet are those of the items, one by one in order. -/
inductive FiltersAre : List (Bytes × UInt8) → List Mqtt.Filter → Prop
  | nil : FiltersAre [] []
  | cons {path : Bytes} {o : UInt8} {f : Mqtt.Filter} {items : List (Bytes × UInt8)}
      {fs : List Mqtt.Filter} : f.path = path → OptionsAre o f → FiltersAre items fs →
      FiltersAre ((path, o) :: items) (f :: fs)

end Spec
