import Verif.Model.Display
/-
The texts of errors tell them apart.
-/
namespace Mqtt

theorem toString_toList (n : Nat) : (toString n).toList = Nat.toDigits 10 n := by
  rw [Nat.toString_eq_repr, Nat.toList_repr]

theorem toDigits_inj {m n : Nat} (h : Nat.toDigits 10 m = Nat.toDigits 10 n) : m = n := by
  have := congrArg (fun l => Nat.ofDigitChars 10 l 0) h
  simpa [Nat.ofDigitChars_ten_toDigits] using this

/-- A number is recovered from its digits if what follows does not begin with a digit. -/
theorem digits_append {m n : Nat} {r r' : List Char}
    (h : Nat.toDigits 10 m ++ ' ' :: r = Nat.toDigits 10 n ++ ' ' :: r') : m = n ∧ r = r' := by
  have key : ∀ (l l' : List Char), (∀ c ∈ l, c.isDigit) → (∀ c ∈ l', c.isDigit) →
      l ++ ' ' :: r = l' ++ ' ' :: r' → l = l' ∧ r = r' := by
    intro l
    induction l with
    | nil =>
      intro l' _ h2 he
      cases l' with
      | nil => simpa using he
      | cons c l' =>
        simp only [List.nil_append, List.cons_append, List.cons.injEq] at he
        have := h2 c (.head _)
        rw [← he.1] at this
        exact absurd this (by decide)
    | cons c l ih =>
      intro l' h1 h2 he
      cases l' with
      | nil =>
        simp only [List.nil_append, List.cons_append, List.cons.injEq] at he
        have := h1 c (.head _)
        rw [he.1] at this
        exact absurd this (by decide)
      | cons d l' =>
        simp only [List.cons_append, List.cons.injEq] at he
        obtain ⟨e1, e2⟩ := ih l' (fun c hc => h1 c (.tail _ hc)) (fun c hc => h2 c (.tail _ hc)) he.2
        exact ⟨by rw [he.1, e1], e2⟩
  have hd : ∀ k c, c ∈ Nat.toDigits 10 k → c.isDigit = true := fun k c hc =>
    Nat.isDigit_of_mem_toDigits (by omega) (by omega) hc
  obtain ⟨h1, h2⟩ := key _ _ (hd m) (hd n) h
  exact ⟨toDigits_inj h1, h2⟩

/-- Number of the variant. -/
def Err.idx : Err → Nat
  | .InvalidConnectReturnCode _ => 0
  | .InvalidReason _ => 1
  | .InvalidRemainingLength _ => 2
  | .InvalidProtocol => 3
  | .InvalidProtocolLevel _ => 4
  | .IncorrectPacketFormat => 5
  | .InvalidPacketType _ => 6
  | .InvalidRetainForwardRule _ => 7
  | .InvalidQoS _ => 8
  | .InvalidSubscribeReasonCode _ => 9
  | .PacketIdZero => 10
  | .EmptySubscription => 11
  | .SubscriptionIdZero => 12
  | .PayloadSizeIncorrect => 13
  | .PayloadTooLong => 14
  | .BinaryDataTooLong => 15
  | .PayloadSizeLimitExceeded _ _ => 16
  | .PayloadRequired => 17
  | .PayloadNotUtf8 => 18
  | .TopicNotUtf8 => 19
  | .BoundaryCrossed _ => 20
  | .MalformedPacket => 21
  | .MalformedRemainingLength => 22
  | .InvalidPropertyType _ => 23
  | .InsufficientBytes _ => 24

/-- The characters of a text until the first number; a text without number is closed by a line
end. -/
def Err.head : Err → List Char
  | .InvalidConnectReturnCode _ => "Invalid return code received as response for connect = ".toList
  | .InvalidReason _ => "Invalid reason = ".toList
  | .InvalidRemainingLength _ => "Invalid remaining length = ".toList
  | .InvalidProtocol => "Invalid protocol used\n".toList
  | .InvalidProtocolLevel _ => "Invalid protocol level\n".toList
  | .IncorrectPacketFormat => "Invalid packet format\n".toList
  | .InvalidPacketType _ => "Invalid packet type = ".toList
  | .InvalidRetainForwardRule _ => "Invalid retain forward rule = ".toList
  | .InvalidQoS _ => "Invalid QoS level = ".toList
  | .InvalidSubscribeReasonCode _ => "Invalid subscribe reason code = ".toList
  | .PacketIdZero => "Packet received has id Zero\n".toList
  | .EmptySubscription => "Empty Subscription\n".toList
  | .SubscriptionIdZero => "Subscription had id Zero\n".toList
  | .PayloadSizeIncorrect => "Payload size is incorrect\n".toList
  | .PayloadTooLong => "Payload is too long\n".toList
  | .BinaryDataTooLong => "Binary data is too long\n".toList
  | .PayloadSizeLimitExceeded _ _ => "Max Payload size of ".toList
  | .PayloadRequired => "Payload is required\n".toList
  | .PayloadNotUtf8 => "Payload is required = \n".toList
  | .TopicNotUtf8 => "Topic not utf-8\n".toList
  | .BoundaryCrossed _ => "Promised boundary crossed, contains ".toList
  | .MalformedPacket => "Packet is malformed\n".toList
  | .MalformedRemainingLength => "Remaining length is malformed\n".toList
  | .InvalidPropertyType _ => "Invalid property type = ".toList
  | .InsufficientBytes _ => "Insufficient number of bytes to frame packet, ".toList

/-- One error of each variant. -/
def Err.each : List Err :=
  [.InvalidConnectReturnCode 0, .InvalidReason 0, .InvalidRemainingLength 0, .InvalidProtocol,
    .InvalidProtocolLevel 0, .IncorrectPacketFormat, .InvalidPacketType 0,
    .InvalidRetainForwardRule 0, .InvalidQoS 0, .InvalidSubscribeReasonCode 0, .PacketIdZero,
    .EmptySubscription, .SubscriptionIdZero, .PayloadSizeIncorrect, .PayloadTooLong,
    .BinaryDataTooLong, .PayloadSizeLimitExceeded 0 0, .PayloadRequired, .PayloadNotUtf8,
    .TopicNotUtf8, .BoundaryCrossed 0, .MalformedPacket, .MalformedRemainingLength,
    .InvalidPropertyType 0, .InsufficientBytes 0]

theorem Err.head_each (e : Err) : ∃ x ∈ Err.each, e.head = x.head ∧ e.idx = x.idx := by
  cases e
  all_goals first
    | exact ⟨_, by decide, rfl, rfl⟩
    | skip
  · exact ⟨.InvalidConnectReturnCode 0, by decide, rfl, rfl⟩
  · exact ⟨.InvalidReason 0, by decide, rfl, rfl⟩
  · exact ⟨.InvalidRemainingLength 0, by decide, rfl, rfl⟩
  · exact ⟨.InvalidProtocolLevel 0, by decide, rfl, rfl⟩
  · exact ⟨.InvalidPacketType 0, by decide, rfl, rfl⟩
  · exact ⟨.InvalidRetainForwardRule 0, by decide, rfl, rfl⟩
  · exact ⟨.InvalidQoS 0, by decide, rfl, rfl⟩
  · exact ⟨.InvalidSubscribeReasonCode 0, by decide, rfl, rfl⟩
  · exact ⟨.PayloadSizeLimitExceeded 0 0, by decide, rfl, rfl⟩
  · exact ⟨.BoundaryCrossed 0, by decide, rfl, rfl⟩
  · exact ⟨.InvalidPropertyType 0, by decide, rfl, rfl⟩
  · exact ⟨.InsufficientBytes 0, by decide, rfl, rfl⟩

theorem Err.heads_differ : ∀ x ∈ Err.each, ∀ y ∈ Err.each, x.idx ≠ y.idx →
    ¬ x.head <+: y.head := by
  decide +kernel

theorem prefix1 (a b : String) : a.toList <+: (a ++ b).toList ++ ['\n'] := by
  rw [String.toList_append, List.append_assoc]; exact List.prefix_append _ _

theorem prefix2 (a b c : String) : a.toList <+: (a ++ b ++ c).toList ++ ['\n'] := by
  rw [String.append_assoc]; exact prefix1 _ _

theorem prefix4 (a b c d e : String) : a.toList <+: (a ++ b ++ c ++ d ++ e).toList ++ ['\n'] := by
  rw [String.append_assoc, String.append_assoc]; exact prefix2 _ _ _

theorem Err.display_head (e : Err) : e.head <+: e.display.toList ++ ['\n'] := by
  cases e
  case InvalidConnectReturnCode n => exact prefix1 _ _
  case InvalidReason n => exact prefix1 _ _
  case InvalidRemainingLength n => exact prefix1 _ _
  case InvalidPacketType n => exact prefix1 _ _
  case InvalidRetainForwardRule n => exact prefix1 _ _
  case InvalidQoS n => exact prefix1 _ _
  case InvalidSubscribeReasonCode n => exact prefix1 _ _
  case InvalidPropertyType n => exact prefix1 _ _
  case PayloadSizeLimitExceeded k m => exact prefix4 _ _ _ _ _
  case BoundaryCrossed n => exact prefix2 _ _ _
  case InsufficientBytes n => exact prefix2 _ _ _
  case InvalidProtocolLevel n =>
    show "Invalid protocol level\n".toList <+: "Invalid protocol level".toList ++ ['\n']
    decide +kernel
  all_goals decide +kernel

theorem Err.display_variant {e e' : Err} (h : e.display = e'.display) : e.idx = e'.idx := by
  obtain ⟨x, hx, ex, ix⟩ := e.head_each
  obtain ⟨y, hy, ey, iy⟩ := e'.head_each
  refine Classical.byContradiction fun hne => ?_
  have h1 := e.display_head
  have h2 := e'.display_head
  rw [← h] at h2
  rw [ix, iy] at hne
  rw [ex] at h1
  rw [ey] at h2
  rcases List.prefix_or_prefix_of_prefix h1 h2 with h3 | h3
  · exact Err.heads_differ x hx y hy hne h3
  · exact Err.heads_differ y hy x hx (Ne.symm hne) h3

theorem num_end {a : String} {m n : Nat} (h : a ++ toString m = a ++ toString n) : m = n := by
  have := congrArg String.toList h
  rw [String.toList_append, String.toList_append, List.append_cancel_left_eq, toString_toList,
    toString_toList] at this
  exact toDigits_inj this

theorem text_has : " has been exceeded by packet of ".toList =
    ' ' :: "has been exceeded by packet of ".toList := by decide +kernel

theorem text_bytes : " bytes".toList = ' ' :: "bytes".toList := by decide +kernel

theorem text_more : " more bytes required".toList = ' ' :: "more bytes required".toList := by
  decide +kernel

theorem num_mid {a b : String} {r : List Char} (hb : b.toList = ' ' :: r) {m n : Nat}
    (h : a ++ toString m ++ b = a ++ toString n ++ b) : m = n := by
  have := congrArg String.toList h
  simp only [String.toList_append, List.append_assoc, List.append_cancel_left_eq, toString_toList,
    hb] at this
  exact (digits_append this).1

theorem num_two {a b c : String} {r s : List Char} (hb : b.toList = ' ' :: r) (hc : c.toList = ' ' :: s)
    {k m k' m' : Nat} (h : a ++ toString m ++ b ++ toString k ++ c =
      a ++ toString m' ++ b ++ toString k' ++ c) : m = m' ∧ k = k' := by
  have := congrArg String.toList h
  simp only [String.toList_append, List.append_assoc, List.append_cancel_left_eq, toString_toList,
    hb, hc, List.cons_append] at this
  obtain ⟨h1, h2⟩ := digits_append this
  exact ⟨h1, (digits_append (List.append_cancel_left h2)).1⟩

theorem Err.display_inj {e e' : Err} (h : e.display = e'.display) :
    e = e' ∨ ∃ n n', e = .InvalidProtocolLevel n ∧ e' = .InvalidProtocolLevel n' := by
  have hv := Err.display_variant h
  cases e <;> cases e' <;> try (exact absurd hv (Nat.ne_of_beq_eq_false rfl))
  case InvalidConnectReturnCode.InvalidConnectReturnCode m n =>
    left
    have h : "Invalid return code received as response for connect = " ++ toString m.toNat =
      "Invalid return code received as response for connect = " ++ toString n.toNat := h
    rw [UInt8.toNat_inj.1 (num_end h)]
  case InvalidReason.InvalidReason m n =>
    left
    have h : "Invalid reason = " ++ toString m.toNat =
      "Invalid reason = " ++ toString n.toNat := h
    rw [UInt8.toNat_inj.1 (num_end h)]
  case InvalidRemainingLength.InvalidRemainingLength m n =>
    left
    have h : "Invalid remaining length = " ++ toString m =
      "Invalid remaining length = " ++ toString n := h
    rw [num_end h]
  case InvalidPacketType.InvalidPacketType m n =>
    left
    have h : "Invalid packet type = " ++ toString m.toNat =
      "Invalid packet type = " ++ toString n.toNat := h
    rw [UInt8.toNat_inj.1 (num_end h)]
  case InvalidRetainForwardRule.InvalidRetainForwardRule m n =>
    left
    have h : "Invalid retain forward rule = " ++ toString m.toNat =
      "Invalid retain forward rule = " ++ toString n.toNat := h
    rw [UInt8.toNat_inj.1 (num_end h)]
  case InvalidQoS.InvalidQoS m n =>
    left
    have h : "Invalid QoS level = " ++ toString m.toNat =
      "Invalid QoS level = " ++ toString n.toNat := h
    rw [UInt8.toNat_inj.1 (num_end h)]
  case InvalidSubscribeReasonCode.InvalidSubscribeReasonCode m n =>
    left
    have h : "Invalid subscribe reason code = " ++ toString m.toNat =
      "Invalid subscribe reason code = " ++ toString n.toNat := h
    rw [UInt8.toNat_inj.1 (num_end h)]
  case InvalidPropertyType.InvalidPropertyType m n =>
    left
    have h : "Invalid property type = " ++ toString m.toNat =
      "Invalid property type = " ++ toString n.toNat := h
    rw [UInt8.toNat_inj.1 (num_end h)]
  case InvalidProtocolLevel.InvalidProtocolLevel m n => exact .inr ⟨_, _, rfl, rfl⟩
  case PayloadSizeLimitExceeded.PayloadSizeLimitExceeded k m k' m' =>
    left
    have h : "Max Payload size of " ++ toString m ++ " has been exceeded by packet of "
          ++ toString k ++ " bytes" =
        "Max Payload size of " ++ toString m' ++ " has been exceeded by packet of "
          ++ toString k' ++ " bytes" := h
    obtain ⟨h1, h2⟩ := num_two text_has text_bytes h
    rw [h1, h2]
  case BoundaryCrossed.BoundaryCrossed m n =>
    left
    have h : "Promised boundary crossed, contains " ++ toString m ++ " bytes" =
      "Promised boundary crossed, contains " ++ toString n ++ " bytes" := h
    rw [num_mid text_bytes h]
  case InsufficientBytes.InsufficientBytes m n =>
    left
    have h : "Insufficient number of bytes to frame packet, " ++ toString m ++ " more bytes required" =
      "Insufficient number of bytes to frame packet, " ++ toString n ++ " more bytes required" := h
    rw [num_mid text_more h]
  all_goals exact .inl rfl

end Mqtt
