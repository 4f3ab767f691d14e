import Verif.Spec.Mqtt5
/-
Vocabulary for C66: what a user of this library is given for each frame that a peer sends who keeps
to MQTT 5.
-/
namespace Spec

open Mqtt (Bytes StrMode Packet Out)

/-- `Seen mode f p ps o`: for the frame `f`, which stands for the packet `p` and has the properties
`ps`, `Packet::read` returns `o`. -/
inductive Seen (mode : StrMode) (f : Bytes) : Packet → List Property → Out Packet → Prop
  /-- The packet that was sent. -/
  | same {p : Packet} {ps : List Property} : Supported mode f p ps → Seen mode f p ps (.ok p)
  /-- A DISCONNECT with a reason and without property length. -/
  | disconnect {d : Mqtt.Disconnect} {ps : List Property} : f.length = 3 →
      Seen mode f (.Disconnect d) ps (.err (.InsufficientBytes 1))
  /-- A CONNECT with a password that is not UTF-8, in the builds with UTF-8 strings. -/
  | connect {c : Mqtt.Connect} {w : Option Mqtt.LastWill} {l : Mqtt.Login} {ps : List Property} :
      ¬ TextOk mode l.password → Seen mode f (.Connect c w (some l)) ps (.err .TopicNotUtf8)
  /-- A PUBLISH in which, behind the properties `pre` and not before, no more bytes of the section
  are left than there were subscription identifiers: the properties `post` are missing, and their
  bytes are found before the payload. -/
  | publish {p : Mqtt.Publish} {pre post : List Property} : post ≠ [] →
      (encProps post).length ≤ subIds pre →
      (∀ a q b, pre = a ++ q :: b → subIds a < (encProps (q :: b ++ post)).length) →
      Seen mode f (.Publish p) (pre ++ post) (.ok (.Publish { p with
        properties := propsOf PublishProperties.ofList pre
        payload := encProps post ++ p.payload }))

end Spec
