import Verif.Spec.Will
/-
Vocabulary for C83: topic aliases (MQTT 5, 3.3.2.3.4).
-/
namespace Spec

open Mqtt (Bytes Packet Publish PublishProperties)

/-- Which topic an alias stands for at the moment. -/
def Aliases := UInt16 → Option Bytes

/-- At the start of a connection no alias stands for anything. -/
def Aliases.start : Aliases := fun _ => none

def Aliases.set (tab : Aliases) (a : UInt16) (topic : Bytes) : Aliases :=
  fun b => if b = a then some topic else tab b

/-- The alias of a message. -/
def aliasOf (p : Publish) : Option UInt16 := p.properties.bind (·.topic_alias)

/-- The properties with the alias. -/
def withAlias (q : Option PublishProperties) (a : UInt16) : PublishProperties :=
  match q with
  | some q => { q with topic_alias := some a }
  | none => { noPublishProps with topic_alias := some a }

/-- The properties without the alias. -/
def withoutAlias (q : Option PublishProperties) : Option PublishProperties :=
  match q with
  | none => none
  | some q =>
    if { q with topic_alias := none } = noPublishProps then none
    else some { q with topic_alias := none }

/-- How a sender may send packets (the first ones of the pairs): a message with a topic and no alias is
sent as it is, or with an alias that stands for its topic from then on, or with an alias that stands for
its topic already, without the topic. Packets of other kinds are sent as they are. -/
inductive Aliased : Aliases → List (Packet × Packet) → Prop
  | nil (tab : Aliases) : Aliased tab []
  | other {tab : Aliases} {p : Packet} {l : List (Packet × Packet)} : (∀ m, p ≠ .Publish m) →
      Aliased tab l → Aliased tab ((p, p) :: l)
  | plain {tab : Aliases} {m : Publish} {l : List (Packet × Packet)} : m.topic ≠ [] →
      aliasOf m = none → Aliased tab l → Aliased tab ((.Publish m, .Publish m) :: l)
  | define {tab : Aliases} {m : Publish} {l : List (Packet × Packet)} (a : UInt16) : m.topic ≠ [] →
      aliasOf m = none → Aliased (tab.set a m.topic) l →
      Aliased tab ((.Publish m,
        .Publish { m with properties := some (withAlias m.properties a) }) :: l)
  | use {tab : Aliases} {m : Publish} {l : List (Packet × Packet)} (a : UInt16) : m.topic ≠ [] →
      aliasOf m = none → tab a = some m.topic → Aliased tab l →
      Aliased tab ((.Publish m,
        .Publish { m with topic := [], properties := some (withAlias m.properties a) }) :: l)

/-- What a receiver makes of the packets it has read: it keeps the table and puts the topics in again;
`none` if a message has neither topic nor a known alias. -/
def resolve (tab : Aliases) : List Packet → Option (List Packet)
  | [] => some []
  | .Publish p :: ps =>
    match aliasOf p with
    | none => if p.topic = [] then none else (resolve tab ps).map (.Publish p :: ·)
    | some a =>
      if p.topic = [] then
        match tab a with
        | none => none
        | some t => (resolve tab ps).map
            (.Publish { p with topic := t, properties := withoutAlias p.properties } :: ·)
      else (resolve (tab.set a p.topic) ps).map
        (.Publish { p with properties := withoutAlias p.properties } :: ·)
  | p :: ps => (resolve tab ps).map (p :: ·)

end Spec
