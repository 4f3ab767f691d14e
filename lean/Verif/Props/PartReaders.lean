import Verif.Spec.PartReaders
import Verif.Props.Dispatch
import Verif.Proofs.Diagnose
import Verif.Proofs.LayoutPackets
/-
C64: the public readers of parts of packets, exactly: which inputs they accept, with which value and
what they leave, and with which error they refuse all others; and the public writers of parts, on
every value, whether it can be encoded or not.
-/
namespace Props

open Mqtt Spec

theorem readsExactly_of {α : Type} {R : α → Bytes → Prop} {E : Bytes → Err → Prop} {m : M α}
    (hR : Reps m R) (hE : Diag m E) (hg : Good m) : ReadsExactly R E m := by
  refine ⟨hR, hE, fun b => ?_, fun b => ?_⟩
  · obtain ⟨h1, h2, -⟩ := hg b
    cases h : (m b).1 with
    | ok a => exact .inl ⟨a, rfl⟩
    | err e => exact .inr ⟨e, rfl⟩
    | panic => exact absurd h h1
    | diverge => exact absurd h h2
  · obtain ⟨-, -, u, h⟩ := hg b
    exact ⟨u, h.symm⟩

theorem record_reads {σ : Type} {mode : StrMode} {ids : List UInt8} {read : M (Option σ)}
    {ofList : List Property → σ}
    (he : read = gRead mode ids >>= fun o => pure (o.map ofList)) (hk : KnownIds ids) :
    ReadsExactly (RecordRep mode ids ofList) (SecErr mode ids) read := by
  refine readsExactly_of ?_ (diag_props he hk) (props_good he)
  intro a b r
  rw [he]
  constructor
  · intro h
    obtain ⟨ps, b1, h1, h2⟩ := M.bind_eq_ok.1 h
    obtain ⟨s, rfl, hs⟩ := gRead_sec.1 h1
    obtain ⟨rfl, rfl⟩ := pure_ok.1 h2
    exact ⟨s, rfl, ps, hs, rfl⟩
  · rintro ⟨s, rfl, ps, hs, rfl⟩
    exact M.bind_eq_ok.2 ⟨ps, r, gRead_sec.2 ⟨s, rfl, hs⟩, rfl⟩

/-- C64: the reader of each property record, on every input. -/
theorem C64_records (mode : StrMode) :
    ReadsExactly (RecordRep mode Spec.ConnectProperties.allowed Spec.ConnectProperties.ofList)
      (SecErr mode Spec.ConnectProperties.allowed) (ConnectProperties.read mode) ∧
    ReadsExactly (RecordRep mode Spec.LastWillProperties.allowed Spec.LastWillProperties.ofList)
      (SecErr mode Spec.LastWillProperties.allowed) (LastWillProperties.read mode) ∧
    ReadsExactly (RecordRep mode Spec.ConnAckProperties.allowed Spec.ConnAckProperties.ofList)
      (SecErr mode Spec.ConnAckProperties.allowed) (ConnAckProperties.read mode) ∧
    ReadsExactly (RecordRep mode Spec.PublishProperties.allowed Spec.PublishProperties.ofList)
      (SecErr mode Spec.PublishProperties.allowed) (PublishProperties.read mode) ∧
    ReadsExactly (RecordRep mode Spec.PubAckProperties.allowed Spec.PubAckProperties.ofList)
      (SecErr mode Spec.PubAckProperties.allowed) (PubAckProperties.read mode) ∧
    ReadsExactly (RecordRep mode Spec.PubRecProperties.allowed Spec.PubRecProperties.ofList)
      (SecErr mode Spec.PubRecProperties.allowed) (PubRecProperties.read mode) ∧
    ReadsExactly (RecordRep mode Spec.PubRelProperties.allowed Spec.PubRelProperties.ofList)
      (SecErr mode Spec.PubRelProperties.allowed) (PubRelProperties.read mode) ∧
    ReadsExactly (RecordRep mode Spec.PubCompProperties.allowed Spec.PubCompProperties.ofList)
      (SecErr mode Spec.PubCompProperties.allowed) (PubCompProperties.read mode) ∧
    ReadsExactly (RecordRep mode Spec.SubscribeProperties.allowed Spec.SubscribeProperties.ofList)
      (SecErr mode Spec.SubscribeProperties.allowed) (SubscribeProperties.read mode) ∧
    ReadsExactly (RecordRep mode Spec.SubAckProperties.allowed Spec.SubAckProperties.ofList)
      (SecErr mode Spec.SubAckProperties.allowed) (SubAckProperties.read mode) ∧
    ReadsExactly (RecordRep mode Spec.UnsubscribeProperties.allowed Spec.UnsubscribeProperties.ofList)
      (SecErr mode Spec.UnsubscribeProperties.allowed) (UnsubscribeProperties.read mode) ∧
    ReadsExactly (RecordRep mode Spec.UnsubAckProperties.allowed Spec.UnsubAckProperties.ofList)
      (SecErr mode Spec.UnsubAckProperties.allowed) (UnsubAckProperties.read mode) ∧
    ReadsExactly (RecordRep mode Spec.DisconnectProperties.allowed Spec.DisconnectProperties.ofList)
      (SecErr mode Spec.DisconnectProperties.allowed) (DisconnectProperties.extract mode) :=
  ⟨record_reads (ConnectProperties.read_eq mode) (by decide),
    record_reads (LastWillProperties.read_eq mode) (by decide),
    record_reads (ConnAckProperties.read_eq mode) (by decide),
    record_reads (PublishProperties.read_eq mode) (by decide),
    record_reads (PubAckProperties.read_eq mode) (by decide),
    record_reads (PubRecProperties.read_eq mode) (by decide),
    record_reads (PubRelProperties.read_eq mode) (by decide),
    record_reads (PubCompProperties.read_eq mode) (by decide),
    record_reads (SubscribeProperties.read_eq mode) (by decide),
    record_reads (SubAckProperties.read_eq mode) (by decide),
    record_reads (UnsubscribeProperties.read_eq mode) (by decide),
    record_reads (UnsubAckProperties.read_eq mode) (by decide),
    record_reads (DisconnectProperties.read_eq mode) (by decide)⟩

/-- C64: the readers of wills and logins, for every flag byte of a CONNECT and every input. -/
theorem C64_will_login (mode : StrMode) (flags : UInt8) :
    ReadsExactly (WillRep mode flags.toNat) (WillErr mode flags.toNat)
      (LastWill.read mode flags) ∧
    ReadsExactly (LoginRep mode flags.toNat) (LoginErr mode flags.toNat)
      (Login.read mode flags) :=
  ⟨readsExactly_of (fun _ _ _ => LastWill.read_ok) (LastWill.diag flags) (LastWill.read_good flags),
    readsExactly_of (fun _ _ _ => Login.read_ok) (Login.diag flags) (Login.read_good flags)⟩

/-- C64: the reader of subscriptions returns exactly if the input is a sequence of subscriptions and
nothing else, and consumes it; otherwise the first defective one decides the error. -/
theorem C64_filters (mode : StrMode) (b : Bytes) :
    (∀ fs r, Filter.read mode b = (.ok fs, r) ↔ r = [] ∧ SeqRep (FilterRep mode) fs b) ∧
    (∀ e, (∃ r, Filter.read mode b = (.err e, r)) ↔
      ListErr (FilterRep mode) (FilterErr mode) b e) := by
  have hs := fun e => gSeq_fails (fun _ _ _ => Filter.one_ok) (Filter.diag (mode := mode))
    (fun x w h => Filter.one_pos h) (b.length + 1) [] b e (by omega)
  have hg := fun l r => gSeq_ok (one := Filter.readOne mode) Filter.one_ok Filter.one_pos
    (b.length + 1) (acc := []) (b := b) (l := l) (r := r) (by omega)
  simp only [Filter.read, Filter.readLoop_eq, getBuf_bind]
  refine ⟨fun fs r => (hg fs r).trans ?_, fun e => hs e⟩
  simp

/-- C64: the writer of each property record, for every record, also with values that cannot be
written. -/
theorem C64_write_records :
    (∀ p : ConnectProperties, AppendsPieces p.write ()
      (sectionPieces (Spec.ConnectProperties.toList p))) ∧
    (∀ p : LastWillProperties, AppendsPieces p.write ()
      (sectionPieces (Spec.LastWillProperties.toList p))) ∧
    (∀ p : ConnAckProperties, AppendsPieces p.write ()
      (sectionPieces (Spec.ConnAckProperties.toList p))) ∧
    (∀ p : PublishProperties, AppendsPieces p.write ()
      (sectionPieces (Spec.PublishProperties.toList p))) ∧
    (∀ p : PubAckProperties, AppendsPieces p.write ()
      (sectionPieces (Spec.PubAckProperties.toList p))) ∧
    (∀ p : PubRecProperties, AppendsPieces p.write ()
      (sectionPieces (Spec.PubRecProperties.toList p))) ∧
    (∀ p : PubRelProperties, AppendsPieces p.write ()
      (sectionPieces (Spec.PubRelProperties.toList p))) ∧
    (∀ p : PubCompProperties, AppendsPieces p.write ()
      (sectionPieces (Spec.PubCompProperties.toList p))) ∧
    (∀ p : SubscribeProperties, AppendsPieces p.write ()
      (sectionPieces (Spec.SubscribeProperties.toList p))) ∧
    (∀ p : SubAckProperties, AppendsPieces p.write ()
      (sectionPieces (Spec.SubAckProperties.toList p))) ∧
    (∀ p : UnsubscribeProperties, AppendsPieces p.write ()
      (sectionPieces (Spec.UnsubscribeProperties.toList p))) ∧
    (∀ p : UnsubAckProperties, AppendsPieces p.write ()
      (sectionPieces (Spec.UnsubAckProperties.toList p))) ∧
    (∀ p : DisconnectProperties, AppendsPieces p.write ()
      (sectionPieces (Spec.DisconnectProperties.toList p))) :=
  ⟨plays_record ConnectProperties.len_eq ConnectProperties.write_eq,
    plays_record LastWillProperties.len_eq LastWillProperties.write_eq,
    plays_record ConnAckProperties.len_eq ConnAckProperties.write_eq,
    plays_record PublishProperties.len_eq PublishProperties.write_eq,
    plays_record PubAckProperties.len_eq PubAckProperties.write_eq,
    plays_record PubRecProperties.len_eq PubRecProperties.write_eq,
    plays_record PubRelProperties.len_eq PubRelProperties.write_eq,
    plays_record PubCompProperties.len_eq PubCompProperties.write_eq,
    plays_record SubscribeProperties.len_eq SubscribeProperties.write_eq,
    plays_record SubAckProperties.len_eq SubAckProperties.write_eq,
    plays_record UnsubscribeProperties.len_eq UnsubscribeProperties.write_eq,
    plays_record UnsubAckProperties.len_eq UnsubAckProperties.write_eq,
    plays_record DisconnectProperties.len_eq DisconnectProperties.write_eq⟩

theorem willBits_eq (w : LastWill) : willFlags (some w) = willBits w := by
  obtain ⟨t, m, q, r, p⟩ := w
  cases q <;> cases r <;> simp [willFlags, willBits, qosNum, bit] <;> decide

theorem loginBits_eq (l : Login) : loginFlags (some l) = loginBits l := by
  obtain ⟨u, p⟩ := l
  cases u <;> cases p <;> simp [loginFlags, loginBits, bit] <;> rfl

/-- C64: the writers of wills, logins and subscriptions, for every value; the first two return the
flags of a CONNECT. -/
theorem C64_write_parts :
    (∀ w : LastWill, AppendsPieces w.write (willBits w) (willPieces w)) ∧
    (∀ l : Login, AppendsPieces l.write (loginBits l) (loginPieces l)) ∧
    (∀ f : Filter, AppendsPieces f.write ()
      [.text f.path, .raw [UInt8.ofNat (filterOptions f)]]) := by
  refine ⟨fun w => ?_, fun l => ?_, fun f => ?_⟩
  · rw [← willBits_eq]; exact w.plays
  · rw [← loginBits_eq]; exact l.plays
  · rw [← Filter.options_eq]
    exact Plays.cons (plays_text _) (plays_u8 _)

/-- A record with a payload format: read from these three bytes, and the byte behind them is left. -/
def samplePublishProps : PublishProperties := {
  payload_format_indicator := some 1
  message_expiry_interval := none
  topic_alias := none
  response_topic := none
  correlation_data := none
  user_properties := []
  subscription_identifiers := []
  content_type := none }

example : ∃ u, ([0x02, 0x01, 0x01, 0xFF] : Bytes) = u ++ [0xFF] ∧
    RecordRep .utf8 Spec.PublishProperties.allowed Spec.PublishProperties.ofList
      (some samplePublishProps) u :=
  ((C64_records .utf8).2.2.2.1.ok _ _ _).1
    (show PublishProperties.read .utf8 [0x02, 0x01, 0x01, 0xFF]
      = (.ok (some samplePublishProps), [0xFF]) by decide +kernel)

/-- The receive maximum is not a property of a will: refused. -/
example : SecErr .utf8 Spec.LastWillProperties.allowed [0x03, 0x21, 0x00, 0x0A]
    (.InvalidPropertyType 0x21) :=
  ((C64_records .utf8).2.1.err _ _).1 ⟨[0x00, 0x0A], by decide +kernel⟩

/-- Whatever will has no properties and a topic that is too long: the empty property section is
written, then the writer fails. -/
example (w : LastWill) (hp : w.properties = none) (ht : 65535 < w.topic.length) :
    w.write [0x07] = (.err .BinaryDataTooLong, [0x07, 0x00]) := by
  have h1 : (Piece.num 0).written = .ok [0x00] := by decide +kernel
  have h2 : (Piece.text w.topic).written = .err .BinaryDataTooLong := if_neg (by omega)
  rw [C64_write_parts.1, willPieces, hp]
  show (wrapped _ (emit [.num 0, .text w.topic, .text w.message]).1, _ ++
    (emit [.num 0, .text w.topic, .text w.message]).2) = _
  simp only [emit, h1, h2]
  rfl

end Props
