import Verif.Proofs.Parts
import Verif.Props.Samples
/-
C46: the public readers and writers of parts of packets: property records, subscriptions, wills
and logins.
-/
namespace Props

open Mqtt Spec

/-- C46: the writer and the reader of each property record, called directly, are inverse to each
other, whatever is in the buffer before and whatever follows, and the writer succeeds exactly for
the representable records. The PUBLISH reader does so only if its miscount of subscription
identifiers is harmless (see C03). -/
theorem C46_records (mode : StrMode) :
    RecordIO mode (fun _ => True) Spec.ConnectProperties.toList
      ConnectProperties.write (ConnectProperties.read mode) ∧
    RecordIO mode (fun _ => True) Spec.LastWillProperties.toList
      LastWillProperties.write (LastWillProperties.read mode) ∧
    RecordIO mode (fun _ => True) Spec.ConnAckProperties.toList
      ConnAckProperties.write (ConnAckProperties.read mode) ∧
    RecordIO mode (fun p => DriftSafe (Spec.PublishProperties.toList p)) Spec.PublishProperties.toList
      PublishProperties.write (PublishProperties.read mode) ∧
    RecordIO mode (fun _ => True) Spec.PubAckProperties.toList
      PubAckProperties.write (PubAckProperties.read mode) ∧
    RecordIO mode (fun _ => True) Spec.PubRecProperties.toList
      PubRecProperties.write (PubRecProperties.read mode) ∧
    RecordIO mode (fun _ => True) Spec.PubRelProperties.toList
      PubRelProperties.write (PubRelProperties.read mode) ∧
    RecordIO mode (fun _ => True) Spec.PubCompProperties.toList
      PubCompProperties.write (PubCompProperties.read mode) ∧
    RecordIO mode (fun _ => True) Spec.SubscribeProperties.toList
      SubscribeProperties.write (SubscribeProperties.read mode) ∧
    RecordIO mode (fun _ => True) Spec.SubAckProperties.toList
      SubAckProperties.write (SubAckProperties.read mode) ∧
    RecordIO mode (fun _ => True) Spec.UnsubscribeProperties.toList
      UnsubscribeProperties.write (UnsubscribeProperties.read mode) ∧
    RecordIO mode (fun _ => True) Spec.UnsubAckProperties.toList
      UnsubAckProperties.write (UnsubAckProperties.read mode) ∧
    RecordIO mode (fun _ => True) Spec.DisconnectProperties.toList
      DisconnectProperties.write (DisconnectProperties.extract mode) :=
  ⟨ConnectProperties.io mode, LastWillProperties.io mode, 
    ConnAckProperties.io mode, PublishProperties.io mode, PubAckProperties.io mode, 
    PubRecProperties.io mode, PubRelProperties.io mode, PubCompProperties.io mode, SubscribeProperties.io mode, 
    SubAckProperties.io mode, UnsubscribeProperties.io mode, 
    UnsubAckProperties.io mode, DisconnectProperties.io mode⟩

/-- A representable record with two properties, and what `RecordIO` says about it. -/
example : (SubscribeProperties.write { id := some 7, user_properties := [([0x61], [])] } [9]) =
      (.ok (), [9, 8, 0x0B, 7, 0x26, 0, 1, 0x61, 0, 0]) ∧
    SubscribeProperties.read .utf8 [8, 0x0B, 7, 0x26, 0, 1, 0x61, 0, 0, 5] =
      (.ok (some { id := some 7, user_properties := [([0x61], [])] }), [5]) ∧
    (SubscribeProperties.write { id := some 268435456, user_properties := [] } [9]).1 =
      .err .PayloadTooLong := by
  decide +kernel

/-- C46: a subscription is written as its path and its options; a path that is too long is refused
and nothing is written. -/
theorem C46_filter_write (f : Filter) (b : Bytes) :
    f.write b = if f.path.length ≤ 65535 then (.ok (), b ++ filterBytes f)
      else (.err .BinaryDataTooLong, b) := by
  by_cases h : f.path.length ≤ 65535
  · rw [if_pos h]; exact Filter.write_emits f h b
  · rw [if_neg h]
    rcases write_string_cases f.path b with ⟨h', -⟩ | ⟨-, e⟩
    · exact absurd h' h
    · exact M.bind_err e

/-- C46: the reader of subscriptions consumes a buffer that holds nothing else and returns every
one of them, in order. -/
theorem C46_filters (mode : StrMode) (fs : List Filter)
    (h : ∀ f ∈ fs, f.path.length ≤ 65535 ∧ TextOk mode f.path) :
    Filter.read mode (fs.flatMap filterBytes) = (.ok fs, []) :=
  Filter.read_all fs h

example : Filter.read .utf8 (([Filter.new [0x61] .AtLeastOnce,
      { path := [0x23], qos := .ExactlyOnce, nolocal := true, preserve_retain := false,
        retain_forward_rule := .Never }]).flatMap filterBytes) =
    (.ok [Filter.new [0x61] .AtLeastOnce,
      { path := [0x23], qos := .ExactlyOnce, nolocal := true, preserve_retain := false,
        retain_forward_rule := .Never }], []) := by
  decide +kernel

/-- C46: writing a will appends its bytes and returns its bits of the CONNECT flags, if the will
fits; otherwise it is an error. -/
theorem C46_will_write (w : LastWill) (b : Bytes) :
    (WillFits w → ∃ flags : UInt8, flags.toNat = 4 + 8 * qosNum w.qos + 32 * bit w.retain ∧
      w.write b = (.ok flags, b ++ willBytes w)) ∧
    (¬ WillFits w → ∃ e x, w.write b = (.err e, b ++ x)) :=
  ⟨fun h => ⟨_, willFlags_toNat w, (LastWill.write_io w b).1 h⟩, (LastWill.write_io w b).2⟩

/-- C46: given CONNECT flags whose four will bits are those of the will, whatever the others, the
will is read back, without its property record if that is empty. -/
theorem C46_will_read (mode : StrMode) (w : LastWill) (x : UInt8) (rest : Bytes)
    (hx : x.toNat / 4 % 16 = 1 + 2 * qosNum w.qos + 8 * bit w.retain) (hw : WillFits w)
    (ht : ∀ q ∈ optList Spec.LastWillProperties.toList w.properties, q.TextsOk mode) :
    LastWill.read mode x (willBytes w ++ rest) = (.ok (some {
      w with properties := normProps Spec.LastWillProperties.toList w.properties }), rest) :=
  LastWill.read_bytes rest hx hw.1 hw.2.1 hw.2.2.1 hw.2.2.2 ht

/-- C46: without the will flag there is no will and nothing is consumed; will QoS or retain bits
without the will flag are refused. -/
theorem C46_no_will (mode : StrMode) (x : UInt8) (b : Bytes) (hx : x.toNat / 4 % 2 = 0) :
    LastWill.read mode x b =
      if x.toNat / 8 % 8 = 0 then (.ok none, b) else (.err .IncorrectPacketFormat, b) := by
  obtain ⟨-, e2, e3, -⟩ := bits_connect x
  unfold LastWill.read
  rw [if_pos (e2.2 hx)]
  by_cases h : x.toNat / 8 % 8 = 0
  · rw [if_pos h, if_neg (by simpa using e3.2 h)]; rfl
  · rw [if_neg h, if_pos (fun h' => h (e3.1 h'))]; rfl

/-- C46: writing a login appends the non-empty ones of user name and password and returns their
bits of the CONNECT flags; if one is too long, it is an error. -/
theorem C46_login_write (l : Login) (b : Bytes) :
    (l.username.length ≤ 65535 ∧ l.password.length ≤ 65535 → ∃ flags : UInt8,
      flags.toNat = 64 * bit (!l.password.isEmpty) + 128 * bit (!l.username.isEmpty) ∧
      l.write b = (.ok flags, b ++ loginBytes l)) ∧
    (¬ (l.username.length ≤ 65535 ∧ l.password.length ≤ 65535) →
      ∃ x, l.write b = (.err .BinaryDataTooLong, b ++ x)) :=
  ⟨fun h => ⟨_, loginFlags_toNat l, (Login.write_io l b).1 h⟩, (Login.write_io l b).2⟩

/-- C46: given CONNECT flags whose two login bits are those of the login, whatever the others, the
login is read back; an empty login is read as none. -/
theorem C46_login_read (mode : StrMode) (l : Login) (x : UInt8) (rest : Bytes)
    (hx : x.toNat / 64 = bit (!l.password.isEmpty) + 2 * bit (!l.username.isEmpty))
    (hu : l.username.length ≤ 65535 ∧ TextOk mode l.username)
    (hp : l.password.length ≤ 65535 ∧ TextOk mode l.password) :
    Login.read mode x (loginBytes l ++ rest) =
      (.ok (if l.username = [] ∧ l.password = [] then none else some l), rest) :=
  Login.read_bytes rest hx hu hp

example : LastWill.write {
      topic := [0x74], message := [1, 2], qos := .ExactlyOnce, retain := true,
      properties := none } [7] = (.ok 0x34, [7, 0, 0, 1, 0x74, 0, 2, 1, 2]) ∧
    LastWill.read .utf8 0xB6 [0, 0, 1, 0x74, 0, 2, 1, 2, 3] =
      (.ok (some {
        topic := [0x74], message := [1, 2], qos := .ExactlyOnce, retain := true,
        properties := none }), [3]) ∧
    Login.write { username := [], password := [0x70] } [7] = (.ok 0x40, [7, 0, 1, 0x70]) ∧
    Login.read .utf8 0x76 [0, 1, 0x70, 5] = (.ok (some { username := [], password := [0x70] }), [5])
    := by
  decide +kernel

end Props
