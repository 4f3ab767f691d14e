import Verif.Proofs.Mqtt5
import Verif.Proofs.Codes
/-
Single-valued properties are written at most once. Generated per property record.
-/
namespace Mqtt

open Spec

/-- Number of properties with identifier `k`. -/
def countId (k : UInt8) (l : List Property) : Nat := (l.filter (·.id = k)).length

theorem countId_append (k : UInt8) (l l' : List Property) :
    countId k (l ++ l') = countId k l + countId k l' := by simp [countId]

theorem countId_one {α : Type} {k kid : UInt8} {mk : α → Property} (o : Option α)
    (h : ∀ v, (mk v).id = kid) : countId k (one mk o) ≤ if kid = k then 1 else 0 := by
  cases o with
  | none => simp [countId, one]
  | some v => by_cases hk : kid = k <;> simp [countId, one, h, hk]

theorem countId_map {α : Type} {k kid : UInt8} {mk : α → Property} (l : List α)
    (h : ∀ v, (mk v).id = kid) (hk : kid ≠ k) : countId k (l.map mk) = 0 := by
  induction l with
  | nil => rfl
  | cons a l ih => simpa [countId, h, hk] using ih

theorem countId_users {k : UInt8} (l : List (Bytes × Bytes)) (hk : k ≠ 0x26) :
    countId k (users l) = 0 := countId_map l (fun _ => rfl) (Ne.symm hk)

/-- Each property but the repeatable ones occurs at most once. -/
theorem ConnectProperties.once (p : ConnectProperties) (k : UInt8) (h : k ∉ ([0x26] : List UInt8)) :
    countId k (Spec.ConnectProperties.toList p) ≤ 1 := by
  have hk : k ≠ 0x26 := by rintro rfl; exact h (by decide)
  have h1 := countId_one (k := k) (mk := Property.sessionExpiryInterval) p.session_expiry_interval (kid := 0x11) (fun _ => rfl)
  have h2 := countId_one (k := k) (mk := Property.receiveMaximum) p.receive_maximum (kid := 0x21) (fun _ => rfl)
  have h3 := countId_one (k := k) (mk := Property.maximumPacketSize) p.max_packet_size (kid := 0x27) (fun _ => rfl)
  have h4 := countId_one (k := k) (mk := Property.topicAliasMaximum) p.topic_alias_max (kid := 0x22) (fun _ => rfl)
  have h5 := countId_one (k := k) (mk := Property.requestResponseInformation) p.request_response_info (kid := 0x19) (fun _ => rfl)
  have h6 := countId_one (k := k) (mk := Property.requestProblemInformation) p.request_problem_info (kid := 0x17) (fun _ => rfl)
  have hu := countId_users (k := k) p.user_properties hk
  have h7 := countId_one (k := k) (mk := Property.authenticationMethod) p.authentication_method (kid := 0x15) (fun _ => rfl)
  have h8 := countId_one (k := k) (mk := Property.authenticationData) p.authentication_data (kid := 0x16) (fun _ => rfl)
  have hsum : (if (0x11 : UInt8) = k then 1 else 0) + (if (0x21 : UInt8) = k then 1 else 0) + (if (0x27 : UInt8) = k then 1 else 0) + (if (0x22 : UInt8) = k then 1 else 0) + (if (0x19 : UInt8) = k then 1 else 0) + (if (0x17 : UInt8) = k then 1 else 0) + (if (0x15 : UInt8) = k then 1 else 0) + (if (0x16 : UInt8) = k then 1 else 0) ≤ 1 := by
    clear h hk h1 h2 h3 h4 h5 h6 hu h7 h8
    revert k; exact u8_all (by decide +kernel)
  unfold Spec.ConnectProperties.toList
  simp only [countId_append]
  omega

/-- Each property but the repeatable ones occurs at most once. -/
theorem LastWillProperties.once (p : LastWillProperties) (k : UInt8) (h : k ∉ ([0x26] : List UInt8)) :
    countId k (Spec.LastWillProperties.toList p) ≤ 1 := by
  have hk : k ≠ 0x26 := by rintro rfl; exact h (by decide)
  have h1 := countId_one (k := k) (mk := Property.willDelayInterval) p.delay_interval (kid := 0x18) (fun _ => rfl)
  have h2 := countId_one (k := k) (mk := Property.payloadFormatIndicator) p.payload_format_indicator (kid := 0x01) (fun _ => rfl)
  have h3 := countId_one (k := k) (mk := Property.messageExpiryInterval) p.message_expiry_interval (kid := 0x02) (fun _ => rfl)
  have h4 := countId_one (k := k) (mk := Property.contentType) p.content_type (kid := 0x03) (fun _ => rfl)
  have h5 := countId_one (k := k) (mk := Property.responseTopic) p.response_topic (kid := 0x08) (fun _ => rfl)
  have h6 := countId_one (k := k) (mk := Property.correlationData) p.correlation_data (kid := 0x09) (fun _ => rfl)
  have hu := countId_users (k := k) p.user_properties hk
  have hsum : (if (0x18 : UInt8) = k then 1 else 0) + (if (0x01 : UInt8) = k then 1 else 0) + (if (0x02 : UInt8) = k then 1 else 0) + (if (0x03 : UInt8) = k then 1 else 0) + (if (0x08 : UInt8) = k then 1 else 0) + (if (0x09 : UInt8) = k then 1 else 0) ≤ 1 := by
    clear h hk h1 h2 h3 h4 h5 h6 hu
    revert k; exact u8_all (by decide +kernel)
  unfold Spec.LastWillProperties.toList
  simp only [countId_append]
  omega

/-- Each property but the repeatable ones occurs at most once. -/
theorem ConnAckProperties.once (p : ConnAckProperties) (k : UInt8) (h : k ∉ ([0x26] : List UInt8)) :
    countId k (Spec.ConnAckProperties.toList p) ≤ 1 := by
  have hk : k ≠ 0x26 := by rintro rfl; exact h (by decide)
  have h1 := countId_one (k := k) (mk := Property.sessionExpiryInterval) p.session_expiry_interval (kid := 0x11) (fun _ => rfl)
  have h2 := countId_one (k := k) (mk := Property.receiveMaximum) p.receive_max (kid := 0x21) (fun _ => rfl)
  have h3 := countId_one (k := k) (mk := Property.maximumQos) p.max_qos (kid := 0x24) (fun _ => rfl)
  have h4 := countId_one (k := k) (mk := Property.retainAvailable) p.retain_available (kid := 0x25) (fun _ => rfl)
  have h5 := countId_one (k := k) (mk := Property.maximumPacketSize) p.max_packet_size (kid := 0x27) (fun _ => rfl)
  have h6 := countId_one (k := k) (mk := Property.assignedClientIdentifier) p.assigned_client_identifier (kid := 0x12) (fun _ => rfl)
  have h7 := countId_one (k := k) (mk := Property.topicAliasMaximum) p.topic_alias_max (kid := 0x22) (fun _ => rfl)
  have h8 := countId_one (k := k) (mk := Property.reasonString) p.reason_string (kid := 0x1F) (fun _ => rfl)
  have hu := countId_users (k := k) p.user_properties hk
  have h9 := countId_one (k := k) (mk := Property.wildcardSubscriptionAvailable) p.wildcard_subscription_available (kid := 0x28) (fun _ => rfl)
  have h10 := countId_one (k := k) (mk := Property.subscriptionIdentifierAvailable) p.subscription_identifiers_available (kid := 0x29) (fun _ => rfl)
  have h11 := countId_one (k := k) (mk := Property.sharedSubscriptionAvailable) p.shared_subscription_available (kid := 0x2A) (fun _ => rfl)
  have h12 := countId_one (k := k) (mk := Property.serverKeepAlive) p.server_keep_alive (kid := 0x13) (fun _ => rfl)
  have h13 := countId_one (k := k) (mk := Property.responseInformation) p.response_information (kid := 0x1A) (fun _ => rfl)
  have h14 := countId_one (k := k) (mk := Property.serverReference) p.server_reference (kid := 0x1C) (fun _ => rfl)
  have h15 := countId_one (k := k) (mk := Property.authenticationMethod) p.authentication_method (kid := 0x15) (fun _ => rfl)
  have h16 := countId_one (k := k) (mk := Property.authenticationData) p.authentication_data (kid := 0x16) (fun _ => rfl)
  have hsum : (if (0x11 : UInt8) = k then 1 else 0) + (if (0x21 : UInt8) = k then 1 else 0) + (if (0x24 : UInt8) = k then 1 else 0) + (if (0x25 : UInt8) = k then 1 else 0) + (if (0x27 : UInt8) = k then 1 else 0) + (if (0x12 : UInt8) = k then 1 else 0) + (if (0x22 : UInt8) = k then 1 else 0) + (if (0x1F : UInt8) = k then 1 else 0) + (if (0x28 : UInt8) = k then 1 else 0) + (if (0x29 : UInt8) = k then 1 else 0) + (if (0x2A : UInt8) = k then 1 else 0) + (if (0x13 : UInt8) = k then 1 else 0) + (if (0x1A : UInt8) = k then 1 else 0) + (if (0x1C : UInt8) = k then 1 else 0) + (if (0x15 : UInt8) = k then 1 else 0) + (if (0x16 : UInt8) = k then 1 else 0) ≤ 1 := by
    clear h hk h1 h2 h3 h4 h5 h6 h7 h8 hu h9 h10 h11 h12 h13 h14 h15 h16
    revert k; exact u8_all (by decide +kernel)
  unfold Spec.ConnAckProperties.toList
  simp only [countId_append]
  omega

/-- Each property but the repeatable ones occurs at most once. -/
theorem PublishProperties.once (p : PublishProperties) (k : UInt8) (h : k ∉ ([0x26, 0x0B] : List UInt8)) :
    countId k (Spec.PublishProperties.toList p) ≤ 1 := by
  have hk : k ≠ 0x26 := by rintro rfl; exact h (by decide)
  have hk2 : k ≠ 0x0B := by rintro rfl; exact h (by decide)
  have h1 := countId_one (k := k) (mk := Property.payloadFormatIndicator) p.payload_format_indicator (kid := 0x01) (fun _ => rfl)
  have h2 := countId_one (k := k) (mk := Property.messageExpiryInterval) p.message_expiry_interval (kid := 0x02) (fun _ => rfl)
  have h3 := countId_one (k := k) (mk := Property.topicAlias) p.topic_alias (kid := 0x23) (fun _ => rfl)
  have h4 := countId_one (k := k) (mk := Property.responseTopic) p.response_topic (kid := 0x08) (fun _ => rfl)
  have h5 := countId_one (k := k) (mk := Property.correlationData) p.correlation_data (kid := 0x09) (fun _ => rfl)
  have hu := countId_users (k := k) p.user_properties hk
  have hs := countId_map (k := k) (mk := Property.subscriptionIdentifier) p.subscription_identifiers (kid := 0x0B) (fun _ => rfl) (Ne.symm hk2)
  have h6 := countId_one (k := k) (mk := Property.contentType) p.content_type (kid := 0x03) (fun _ => rfl)
  have hsum : (if (0x01 : UInt8) = k then 1 else 0) + (if (0x02 : UInt8) = k then 1 else 0) + (if (0x23 : UInt8) = k then 1 else 0) + (if (0x08 : UInt8) = k then 1 else 0) + (if (0x09 : UInt8) = k then 1 else 0) + (if (0x03 : UInt8) = k then 1 else 0) ≤ 1 := by
    clear h hk hk2 h1 h2 h3 h4 h5 hu hs h6
    revert k; exact u8_all (by decide +kernel)
  unfold Spec.PublishProperties.toList
  simp only [countId_append]
  omega

/-- Each property but the repeatable ones occurs at most once. -/
theorem PubAckProperties.once (p : PubAckProperties) (k : UInt8) (h : k ∉ ([0x26] : List UInt8)) :
    countId k (Spec.PubAckProperties.toList p) ≤ 1 := by
  have hk : k ≠ 0x26 := by rintro rfl; exact h (by decide)
  have h1 := countId_one (k := k) (mk := Property.reasonString) p.reason_string (kid := 0x1F) (fun _ => rfl)
  have hu := countId_users (k := k) p.user_properties hk
  have hsum : (if (0x1F : UInt8) = k then 1 else 0) ≤ 1 := by
    clear h hk h1 hu
    revert k; exact u8_all (by decide +kernel)
  unfold Spec.PubAckProperties.toList
  simp only [countId_append]
  omega

/-- Each property but the repeatable ones occurs at most once. -/
theorem PubRecProperties.once (p : PubRecProperties) (k : UInt8) (h : k ∉ ([0x26] : List UInt8)) :
    countId k (Spec.PubRecProperties.toList p) ≤ 1 := by
  have hk : k ≠ 0x26 := by rintro rfl; exact h (by decide)
  have h1 := countId_one (k := k) (mk := Property.reasonString) p.reason_string (kid := 0x1F) (fun _ => rfl)
  have hu := countId_users (k := k) p.user_properties hk
  have hsum : (if (0x1F : UInt8) = k then 1 else 0) ≤ 1 := by
    clear h hk h1 hu
    revert k; exact u8_all (by decide +kernel)
  unfold Spec.PubRecProperties.toList
  simp only [countId_append]
  omega

/-- Each property but the repeatable ones occurs at most once. -/
theorem PubRelProperties.once (p : PubRelProperties) (k : UInt8) (h : k ∉ ([0x26] : List UInt8)) :
    countId k (Spec.PubRelProperties.toList p) ≤ 1 := by
  have hk : k ≠ 0x26 := by rintro rfl; exact h (by decide)
  have h1 := countId_one (k := k) (mk := Property.reasonString) p.reason_string (kid := 0x1F) (fun _ => rfl)
  have hu := countId_users (k := k) p.user_properties hk
  have hsum : (if (0x1F : UInt8) = k then 1 else 0) ≤ 1 := by
    clear h hk h1 hu
    revert k; exact u8_all (by decide +kernel)
  unfold Spec.PubRelProperties.toList
  simp only [countId_append]
  omega

/-- Each property but the repeatable ones occurs at most once. -/
theorem PubCompProperties.once (p : PubCompProperties) (k : UInt8) (h : k ∉ ([0x26] : List UInt8)) :
    countId k (Spec.PubCompProperties.toList p) ≤ 1 := by
  have hk : k ≠ 0x26 := by rintro rfl; exact h (by decide)
  have h1 := countId_one (k := k) (mk := Property.reasonString) p.reason_string (kid := 0x1F) (fun _ => rfl)
  have hu := countId_users (k := k) p.user_properties hk
  have hsum : (if (0x1F : UInt8) = k then 1 else 0) ≤ 1 := by
    clear h hk h1 hu
    revert k; exact u8_all (by decide +kernel)
  unfold Spec.PubCompProperties.toList
  simp only [countId_append]
  omega

/-- Each property but the repeatable ones occurs at most once. -/
theorem SubscribeProperties.once (p : SubscribeProperties) (k : UInt8) (h : k ∉ ([0x26] : List UInt8)) :
    countId k (Spec.SubscribeProperties.toList p) ≤ 1 := by
  have hk : k ≠ 0x26 := by rintro rfl; exact h (by decide)
  have h1 := countId_one (k := k) (mk := Property.subscriptionIdentifier) p.id (kid := 0x0B) (fun _ => rfl)
  have hu := countId_users (k := k) p.user_properties hk
  have hsum : (if (0x0B : UInt8) = k then 1 else 0) ≤ 1 := by
    clear h hk h1 hu
    revert k; exact u8_all (by decide +kernel)
  unfold Spec.SubscribeProperties.toList
  simp only [countId_append]
  omega

/-- Each property but the repeatable ones occurs at most once. -/
theorem SubAckProperties.once (p : SubAckProperties) (k : UInt8) (h : k ∉ ([0x26] : List UInt8)) :
    countId k (Spec.SubAckProperties.toList p) ≤ 1 := by
  have hk : k ≠ 0x26 := by rintro rfl; exact h (by decide)
  have h1 := countId_one (k := k) (mk := Property.reasonString) p.reason_string (kid := 0x1F) (fun _ => rfl)
  have hu := countId_users (k := k) p.user_properties hk
  have hsum : (if (0x1F : UInt8) = k then 1 else 0) ≤ 1 := by
    clear h hk h1 hu
    revert k; exact u8_all (by decide +kernel)
  unfold Spec.SubAckProperties.toList
  simp only [countId_append]
  omega

/-- Each property but the repeatable ones occurs at most once. -/
theorem UnsubscribeProperties.once (p : UnsubscribeProperties) (k : UInt8) (h : k ∉ ([0x26] : List UInt8)) :
    countId k (Spec.UnsubscribeProperties.toList p) ≤ 1 := by
  have hk : k ≠ 0x26 := by rintro rfl; exact h (by decide)
  have hu := countId_users (k := k) p.user_properties hk
  unfold Spec.UnsubscribeProperties.toList
  omega

/-- Each property but the repeatable ones occurs at most once. -/
theorem UnsubAckProperties.once (p : UnsubAckProperties) (k : UInt8) (h : k ∉ ([0x26] : List UInt8)) :
    countId k (Spec.UnsubAckProperties.toList p) ≤ 1 := by
  have hk : k ≠ 0x26 := by rintro rfl; exact h (by decide)
  have h1 := countId_one (k := k) (mk := Property.reasonString) p.reason_string (kid := 0x1F) (fun _ => rfl)
  have hu := countId_users (k := k) p.user_properties hk
  have hsum : (if (0x1F : UInt8) = k then 1 else 0) ≤ 1 := by
    clear h hk h1 hu
    revert k; exact u8_all (by decide +kernel)
  unfold Spec.UnsubAckProperties.toList
  simp only [countId_append]
  omega

/-- Each property but the repeatable ones occurs at most once. -/
theorem DisconnectProperties.once (p : DisconnectProperties) (k : UInt8) (h : k ∉ ([0x26] : List UInt8)) :
    countId k (Spec.DisconnectProperties.toList p) ≤ 1 := by
  have hk : k ≠ 0x26 := by rintro rfl; exact h (by decide)
  have h1 := countId_one (k := k) (mk := Property.sessionExpiryInterval) p.session_expiry_interval (kid := 0x11) (fun _ => rfl)
  have h2 := countId_one (k := k) (mk := Property.reasonString) p.reason_string (kid := 0x1F) (fun _ => rfl)
  have hu := countId_users (k := k) p.user_properties hk
  have h3 := countId_one (k := k) (mk := Property.serverReference) p.server_reference (kid := 0x1C) (fun _ => rfl)
  have hsum : (if (0x11 : UInt8) = k then 1 else 0) + (if (0x1F : UInt8) = k then 1 else 0) + (if (0x1C : UInt8) = k then 1 else 0) ≤ 1 := by
    clear h hk h1 h2 hu h3
    revert k; exact u8_all (by decide +kernel)
  unfold Spec.DisconnectProperties.toList
  simp only [countId_append]
  omega

end Mqtt
