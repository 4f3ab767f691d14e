import Verif.Model.New
import Verif.Proofs.Parts
import Verif.Proofs.WritePacket
import Verif.Props.Samples
/-
C47: what the constructors and default values look like on the wire.
-/
namespace Props

open Mqtt Spec

theorem varint_lt {n : Nat} (h : n < 128) : varint n = [UInt8.ofNat n] := by
  rw [varint, if_pos h]

/-- Writing a packet other than CONNECT whose body is short. -/
theorem write_short {p : Packet} {n : Nat} {x : UInt8} {w : Bytes} (he : Encodable p) (hs : Sound p)
    (hc : ¬ IsConnect p) (hb : body p = w) (hn : w.length < 128) (hx : byte1 p = x)
    (hl : n = 2 + w.length) (b : Bytes) :
    p.write b = (.ok n, b ++ x :: UInt8.ofNat w.length :: w) := by
  rw [write_encode he hs (fun h => absurd h hc)]
  unfold encode frame
  rw [hb, varint_lt hn, hx, hl]
  simp
  omega

/-- C47: `Publish::new` at QoS 0 is written as a PUBLISH without flags: topic, properties, payload. -/
theorem C47_publish_qos0 (t pl : Bytes) (pr : Option Mqtt.PublishProperties) (b : Bytes)
    (ht : t.length ≤ 65535) (hp : ∀ q ∈ optList Spec.PublishProperties.toList pr, q.Fits)
    (hl : (str t ++ optSection Spec.PublishProperties.toList pr ++ pl).length ≤ maxVarint) :
    ((Packet.Publish (Publish.new t .AtMostOnce pl pr)).write b).2 =
      b ++ frame 0x30 (str t ++ optSection Spec.PublishProperties.toList pr ++ pl) ∧
    ∃ n, ((Packet.Publish (Publish.new t .AtMostOnce pl pr)).write b).1 = .ok n := by
  have hb : body (.Publish (Publish.new t .AtMostOnce pl pr)) =
      str t ++ optSection Spec.PublishProperties.toList pr ++ pl := by
    simp [body, Publish.new]
  have he : Encodable (.Publish (Publish.new t .AtMostOnce pl pr)) :=
    ⟨by simpa [fields, texts, Publish.new] using ht, hp, hb ▸ hl, by simp [Publish.new]⟩
  rw [write_encode he trivial (fun h => absurd h (by simp [IsConnect]))]
  refine ⟨?_, _, rfl⟩
  unfold encode
  rw [hb]
  rfl

/-- C47: `Publish::new` above QoS 0 has packet identifier 0: it is refused with `PacketIdZero`, on
every buffer, if that is the only thing wrong with it. -/
theorem C47_publish_needs_id (t pl : Bytes) (qos : QoS) (pr : Option Mqtt.PublishProperties)
    (hq : qos ≠ .AtMostOnce) (k : UInt16)
    (he : Encodable (.Publish { Publish.new t qos pl pr with pkid := k })) (b : Bytes) :
    ((Packet.Publish (Publish.new t qos pl pr)).write b).1 = .err .PacketIdZero := by
  have hn : ¬ Encodable (.Publish (Publish.new t qos pl pr)) := fun h => h.2.2.2 hq rfl
  obtain ⟨e, w, hr, hw⟩ := write_refuse hn (fun h => h)
  rw [hw b]
  have hb : (body (.Publish (Publish.new t qos pl pr))).length =
      (body (.Publish { Publish.new t qos pl pr with pkid := k })).length := by
    simp [body, Publish.new, hq, u16]
  rcases hr with ⟨-, s, hs | ⟨q, hq', hs⟩, hlt⟩ | ⟨-, ⟨n, hn, hlt⟩ | hlt⟩ | ⟨rfl, -⟩
  · have := he.1 s hs; omega
  · have := he.2.1 q hq'
    obtain ⟨-, h2, -⟩ := he
    have h3 : q.Fits := h2 q hq'
    exfalso
    cases q <;> simp [Property.strings, Property.texts, Property.Fits] at hs h3 <;>
      first | omega | (subst hs; omega) | (rcases hs with rfl | rfl <;> omega)
  · have := he.2.1 _ hn
    simp only [Property.Fits] at this
    omega
  · have := he.2.2.1; omega
  · rfl

/-- C47: once a packet identifier other than 0 is set, the same packet is written, with that
identifier behind the topic. -/
theorem C47_publish_with_id (t pl : Bytes) (qos : QoS) (pr : Option Mqtt.PublishProperties)
    (hq : qos ≠ .AtMostOnce) (k : UInt16) (hk : k ≠ 0) (b : Bytes)
    (ht : t.length ≤ 65535) (hp : ∀ q ∈ optList Spec.PublishProperties.toList pr, q.Fits)
    (hl : (str t ++ u16 k ++ optSection Spec.PublishProperties.toList pr ++ pl).length
      ≤ maxVarint) :
    ((Packet.Publish { Publish.new t qos pl pr with pkid := k }).write b).2 =
      b ++ frame (UInt8.ofNat (0x30 + 2 * qosNum qos))
        (str t ++ u16 k ++ optSection Spec.PublishProperties.toList pr ++ pl) ∧
    ∃ n, ((Packet.Publish { Publish.new t qos pl pr with pkid := k }).write b).1 = .ok n := by
  have hb : body (.Publish { Publish.new t qos pl pr with pkid := k }) =
      str t ++ u16 k ++ optSection Spec.PublishProperties.toList pr ++ pl := by
    simp [body, Publish.new, hq]
  have he : Encodable (.Publish { Publish.new t qos pl pr with pkid := k }) :=
    ⟨by simpa [fields, texts, Publish.new] using ht, hp, hb ▸ hl, fun _ => hk⟩
  rw [write_encode he trivial (fun h => absurd h (by simp [IsConnect]))]
  refine ⟨?_, _, rfl⟩
  unfold encode
  rw [hb]
  rfl

/-- C47: `Subscribe::new_many` (and `Subscribe::new`, for one filter) has packet identifier 0, and
that is what is written, followed by the properties and the filters in the order given. -/
theorem C47_subscribe (fs : List Filter) (pr : Option Mqtt.SubscribeProperties) (b : Bytes)
    (ht : ∀ f ∈ fs, f.path.length ≤ 65535)
    (hp : ∀ q ∈ optList Spec.SubscribeProperties.toList pr, q.Fits)
    (hl : ([0, 0] ++ optSection Spec.SubscribeProperties.toList pr
      ++ fs.flatMap filterBytes).length ≤ maxVarint) :
    ((Packet.Subscribe (Subscribe.new_many fs pr)).write b).2 =
      b ++ frame 0x82 ([0, 0] ++ optSection Spec.SubscribeProperties.toList pr
        ++ fs.flatMap filterBytes) ∧
    (∃ n, ((Packet.Subscribe (Subscribe.new_many fs pr)).write b).1 = .ok n) ∧
    ∀ f, Subscribe.new f pr = Subscribe.new_many [f] pr := by
  have hb : body (.Subscribe (Subscribe.new_many fs pr)) =
      [0, 0] ++ optSection Spec.SubscribeProperties.toList pr ++ fs.flatMap filterBytes := by
    simp [body, Subscribe.new_many, u16]
  have he : Encodable (.Subscribe (Subscribe.new_many fs pr)) :=
    ⟨by simpa [fields, texts, Subscribe.new_many] using ht, hp, hb ▸ hl, trivial⟩
  rw [write_encode he trivial (fun h => absurd h (by simp [IsConnect]))]
  unfold encode
  rw [hb]
  exact ⟨rfl, ⟨_, rfl⟩, fun _ => rfl⟩

/-- C47: `Filter::new` asks for the given QoS, and all other options bits are 0. -/
theorem C47_filter (t : Bytes) (qos : QoS) (b : Bytes) (ht : t.length ≤ 65535) :
    (Filter.new t qos).write b = (.ok (), b ++ str t ++ [UInt8.ofNat (qosNum qos)]) := by
  rw [Filter.write_emits _ ht b, List.append_assoc]
  cases qos <;> rfl

/-- C47: `Unsubscribe::new` has packet identifier 0 and one filter. -/
theorem C47_unsubscribe (t : Bytes) (pr : Option Mqtt.UnsubscribeProperties) (b : Bytes)
    (ht : t.length ≤ 65535) (hp : ∀ q ∈ optList Spec.UnsubscribeProperties.toList pr, q.Fits)
    (hl : ([0, 0] ++ optSection Spec.UnsubscribeProperties.toList pr ++ str t).length
      ≤ maxVarint) :
    ((Packet.Unsubscribe (Unsubscribe.new t pr)).write b).2 =
      b ++ frame 0xA2 ([0, 0] ++ optSection Spec.UnsubscribeProperties.toList pr ++ str t) ∧
    ∃ n, ((Packet.Unsubscribe (Unsubscribe.new t pr)).write b).1 = .ok n := by
  have hb : body (.Unsubscribe (Unsubscribe.new t pr)) =
      [0, 0] ++ optSection Spec.UnsubscribeProperties.toList pr ++ str t := by
    simp [body, Unsubscribe.new, u16]
  have he : Encodable (.Unsubscribe (Unsubscribe.new t pr)) :=
    ⟨by simpa [fields, texts, Unsubscribe.new] using ht, hp, hb ▸ hl, trivial⟩
  rw [write_encode he trivial (fun h => absurd h (by simp [IsConnect]))]
  unfold encode
  rw [hb]
  exact ⟨rfl, _, rfl⟩

/-- C47: the acknowledgements made from a packet identifier alone are the four-byte packets that
mean success. -/
theorem C47_acks (k : UInt16) (b : Bytes) :
    (Packet.PubAck (PubAck.new k none)).write b = (.ok 4, b ++ [0x40, 2] ++ u16 k) ∧
    (Packet.PubRec (PubRec.new k none)).write b = (.ok 4, b ++ [0x50, 2] ++ u16 k) ∧
    (Packet.PubRel (PubRel.new k none)).write b = (.ok 4, b ++ [0x62, 2] ++ u16 k) ∧
    (Packet.PubComp (PubComp.new k none)).write b = (.ok 4, b ++ [0x70, 2] ++ u16 k) := by
  have hl : (u16 k).length = 2 := rfl
  refine ⟨?_, ?_, ?_, ?_⟩ <;> rw [List.append_assoc]
  · have hb : body (.PubAck (PubAck.new k none)) = u16 k := rfl
    exact write_short (p := .PubAck (PubAck.new k none))
      ⟨by simp [fields, texts], by simp [props, optList, PubAck.new],
      by rw [hb, hl]; decide, trivial⟩ trivial (fun h => h) hb (by rw [hl]; decide) rfl rfl b
  · have hb : body (.PubRec (PubRec.new k none)) = u16 k := rfl
    exact write_short (p := .PubRec (PubRec.new k none))
      ⟨by simp [fields, texts], by simp [props, optList, PubRec.new],
      by rw [hb, hl]; decide, trivial⟩ trivial (fun h => h) hb (by rw [hl]; decide) rfl rfl b
  · have hb : body (.PubRel (PubRel.new k none)) = u16 k := rfl
    exact write_short (p := .PubRel (PubRel.new k none))
      ⟨by simp [fields, texts], by simp [props, optList, PubRel.new],
      by rw [hb, hl]; decide, trivial⟩ trivial (fun h => h) hb (by rw [hl]; decide) rfl rfl b
  · have hb : body (.PubComp (PubComp.new k none)) = u16 k := rfl
    exact write_short (p := .PubComp (PubComp.new k none))
      ⟨by simp [fields, texts], by simp [props, optList, PubComp.new],
      by rw [hb, hl]; decide, trivial⟩ trivial (fun h => h) hb (by rw [hl]; decide) rfl rfl b

/-- C47: `Disconnect::new`: normal disconnection is the two-byte packet; with any other reason four
bytes are appended, of which the announced remaining length covers three (see C10, C31). -/
theorem C47_disconnect (r : DisconnectReasonCode) (b : Bytes) :
    (Packet.Disconnect (Disconnect.new r)).write b =
      if r = .NormalDisconnection then (.ok 2, b ++ [0xE0, 0])
      else (.ok 3, b ++ [0xE0, 1, disconnectCode r, 0]) := by
  by_cases h : r = .NormalDisconnection
  · subst h
    rw [if_pos rfl]
    exact write_short (p := .Disconnect (Disconnect.new .NormalDisconnection)) (w := [])
      ⟨by simp [fields, texts], by simp [props, optList, Disconnect.new], by decide, trivial⟩
      (by simp [Sound, Disconnect.new]) (fun h => h) rfl (by decide) rfl rfl b
  · rw [if_neg h]
    rcases unsound_emits (d := Disconnect.new r) (by simp [Sound, Disconnect.new, h])
      with ⟨-, -, e⟩ | ⟨q, hq, -⟩
    · exact e b
    · cases hq

theorem propsDefault {α : Type} {mode : StrMode} {cond : α → Prop} {toList : α → List Property}
    {write : α → M Unit} {read : M (Option α)} (h : RecordIO mode cond toList write read) {p : α}
    (hp : toList p = []) (b : Bytes) : write p b = (.ok (), b ++ [0]) := by
  have := (h p b).1 ⟨by simp [hp], by simp [hp, encProps]⟩
  rw [hp, propSection_nil] at this
  exact this

/-- C47: the default packets and property records on the wire: no flags, no packet identifier
other than 0, no property. -/
theorem C47_defaults (b : Bytes) :
    ConnectProperties.new.write b = (.ok (), b ++ [0]) ∧
    ConnAckProperties.new.write b = (.ok (), b ++ [0]) ∧
    PublishProperties.default.write b = (.ok (), b ++ [0]) ∧
    (Packet.Publish Publish.default).write b = (.ok 5, b ++ [0x30, 3, 0, 0, 0]) ∧
    (Packet.Subscribe Subscribe.default).write b = (.ok 5, b ++ [0x82, 3, 0, 0, 0]) ∧
    (Packet.Unsubscribe Unsubscribe.default).write b = (.ok 5, b ++ [0xA2, 3, 0, 0, 0]) ∧
    Filter.default.write b = (.ok (), b ++ [0, 0, 0]) := by
  have hbPublish : body (.Publish Publish.default) = [0, 0, 0] := by
    simp [body, Publish.default, QoS.default, optSection, propSection_nil, str, u16]
  have hbSubscribe : body (.Subscribe Subscribe.default) = [0, 0, 0] := by
    simp [body, Subscribe.default, optSection, propSection_nil, u16]
  have hbUnsubscribe : body (.Unsubscribe Unsubscribe.default) = [0, 0, 0] := by
    simp [body, Unsubscribe.default, optSection, propSection_nil, u16]
  refine ⟨propsDefault (ConnectProperties.io .binary) (p := .new) rfl b,
    propsDefault (ConnAckProperties.io .binary) (p := .new) rfl b,
    propsDefault (PublishProperties.io .binary) (p := .default) rfl b, ?_, ?_, ?_, ?_⟩
  · exact write_short (p := .Publish Publish.default) (w := [0, 0, 0])
      ⟨by decide, by simp [props, Publish.default, optList], by rw [hbPublish]; decide, by decide⟩ trivial
      (fun h => h) hbPublish (by decide) rfl rfl b
  · exact write_short (p := .Subscribe Subscribe.default) (w := [0, 0, 0])
      ⟨by decide, by simp [props, Subscribe.default, optList], by rw [hbSubscribe]; decide, by decide⟩ trivial
      (fun h => h) hbSubscribe (by decide) rfl rfl b
  · exact write_short (p := .Unsubscribe Unsubscribe.default) (w := [0, 0, 0])
      ⟨by decide, by simp [props, Unsubscribe.default, optList], by rw [hbUnsubscribe]; decide, by decide⟩ trivial
      (fun h => h) hbUnsubscribe (by decide) rfl rfl b
  · exact Filter.write_emits Filter.default (by decide) b

/-- C47: the default PUBLISH has packet identifier 0 too: filled in by struct update and with the
QoS raised, it is refused with `PacketIdZero` just like one made by `Publish::new`, and at QoS 0 it
is the packet `Publish::new` makes. -/
theorem C47_publish_default (t pl : Bytes) (qos : QoS) (pr : Option Mqtt.PublishProperties)
    (b : Bytes) :
    (Packet.Publish {
      Publish.default with topic := t, qos := qos, payload := pl, properties := pr }).write b =
      (Packet.Publish (Publish.new t qos pl pr)).write b ∧
    Publish.default.pkid = 0 :=
  ⟨rfl, rfl⟩

/-- C47: a text made by `mqtt_string_new` from at most 65535 bytes of UTF-8 is written and read back
unchanged in every feature variant, whatever follows. -/
theorem C47_string (mode : StrMode) (s b rest : Bytes) (hs : s.length ≤ 65535) (hu : IsUtf8 s) :
    write_mqtt_string (mqtt_string_new s) b = (.ok (), b ++ str s) ∧
    read_mqtt_string mode (str s ++ rest) = (.ok (mqtt_string_new s), rest) :=
  ⟨emits_string hs b, read_mqtt_string_ok.2 ⟨rfl, hs, fun _ => hu⟩⟩

/-- The hypotheses can be met, and the theorems say what one expects. -/
example : (Packet.Publish (Publish.new [0x61] .AtLeastOnce [1] none)).write [9] =
      (.err .PacketIdZero, [9, 0x32, 5, 0, 1, 0x61]) ∧
    (Packet.Publish { Publish.new [0x61] .AtLeastOnce [1] none with pkid := 7 }).write [9] =
      (.ok 9, [9, 0x32, 7, 0, 1, 0x61, 0, 7, 0, 1]) ∧
    (Packet.Subscribe (Subscribe.new (Filter.new [0x61] .ExactlyOnce) none)).write [9] =
      (.ok 9, [9, 0x82, 7, 0, 0, 0, 0, 1, 0x61, 2]) ∧
    Login.write (Login.new [0x75] [0x70]) [] = (.ok 0xC0, [0, 1, 0x75, 0, 1, 0x70]) := by
  decide +kernel

end Props
