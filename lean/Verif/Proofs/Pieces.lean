import Verif.Proofs.PropSets
import Verif.Spec.Decode
/-
The properties that a record keeps from a property list: a sub-multiset of it, not empty if the
list is not.
-/
set_option linter.unusedSimpArgs false

namespace Mqtt

open Spec

/-- Total weight of a property list. -/
def wsum (w : Property → Nat) (l : List Property) : Nat := (l.map w).sum

@[simp] theorem wsum_nil (w : Property → Nat) : wsum w [] = 0 := rfl
@[simp] theorem wsum_cons (w : Property → Nat) (p : Property) (l : List Property) :
    wsum w (p :: l) = w p + wsum w l := rfl
@[simp] theorem wsum_append (w : Property → Nat) (l l' : List Property) :
    wsum w (l ++ l') = wsum w l + wsum w l' := by simp [wsum]

/-- `x` is a sub-multiset of `l`. -/
def Within (x l : List Property) : Prop := ∀ w, wsum w x ≤ wsum w l

theorem wsum_mem {w : Property → Nat} {p : Property} {l : List Property} (h : p ∈ l) :
    w p ≤ wsum w l := by
  induction h with
  | head => simp
  | tail _ _ ih => simp; omega

theorem Within.mem {x l : List Property} (h : Within x l) {p : Property} (hp : p ∈ x) : p ∈ l := by
  have h1 := h (fun q => if q = p then 1 else 0)
  have h2 := wsum_mem (w := fun q => if q = p then 1 else 0) hp
  rw [if_pos rfl] at h2
  have h3 : ∀ l : List Property, p ∉ l → wsum (fun q => if q = p then 1 else 0) l = 0 := by
    intro l hl
    induction l with
    | nil => rfl
    | cons q l ih =>
      rw [wsum_cons, ih (fun h => hl (by simp [h])), if_neg (fun h => hl (by simp [h]))]
  exact Classical.byContradiction fun hn => by rw [h3 l hn] at h1; omega

/-- The part of `l` of kind `k`. -/
def kind (k : UInt8) (l : List Property) : List Property := l.filter (·.id = k)

/-- Weight of the parts of the kinds `ks`. -/
def ksum (w : Property → Nat) (l : List Property) (ks : List UInt8) : Nat :=
  (ks.map fun k => wsum w (kind k l)).sum

theorem ksum_le {ks : List UInt8} (h : ks.Nodup) (w : Property → Nat) (l : List Property) :
    ksum w l ks ≤ wsum w l := by
  have ind : ∀ (p : Property) (ks : List UInt8), ks.Nodup →
      (ks.map fun k => if p.id = k then w p else 0).sum ≤ w p ∧
      (p.id ∉ ks → (ks.map fun k => if p.id = k then w p else 0).sum = 0) := by
    intro p ks hn
    induction ks with
    | nil => simp
    | cons k ks ih =>
      obtain ⟨h1, h2⟩ := List.nodup_cons.1 hn
      obtain ⟨i1, i2⟩ := ih h2
      simp only [List.map_cons, List.sum_cons]
      by_cases hk : p.id = k
      · have := i2 (hk ▸ h1)
        rw [if_pos hk]
        exact ⟨by omega, fun hc => absurd (by simp [hk]) hc⟩
      · rw [if_neg hk]
        exact ⟨by omega, fun hc => by have := i2 (fun h => hc (by simp [h])); omega⟩
  induction l with
  | nil =>
    have : ksum w [] ks = 0 := by
      unfold ksum kind
      induction ks with
      | nil => rfl
      | cons k ks ih => simpa using ih (List.nodup_cons.1 h).2
    omega
  | cons p l ih =>
    have e : ksum w (p :: l) ks = (ks.map fun k => if p.id = k then w p else 0).sum + ksum w l ks := by
      clear ih h
      unfold ksum kind
      induction ks with
      | nil => rfl
      | cons k ks ih =>
        simp only [List.map_cons, List.sum_cons, ih]
        by_cases hk : p.id = k
        · simp [hk]; omega
        · simp [hk]; omega
    rw [e, wsum_cons]
    have := (ind p ks h).1
    omega

/-- `x` is a sub-multiset of the parts of the kinds `ks`. -/
def Part (l : List Property) (ks : List UInt8) (x : List Property) : Prop :=
  ∀ w, wsum w x ≤ ksum w l ks

theorem Part.append {l : List Property} {ks ks' : List UInt8} {x y : List Property}
    (h1 : Part l ks x) (h2 : Part l ks' y) : Part l (ks ++ ks') (x ++ y) := by
  intro w
  have := h1 w; have := h2 w
  simp only [ksum, wsum_append, List.map_append, List.sum_append] at *
  omega

theorem Part.within {l : List Property} {ks : List UInt8} {x : List Property} (h : Part l ks x)
    (hn : ks.Nodup) : Within x l := fun w => Nat.le_trans (h w) (ksum_le hn w l)

theorem Part.one {α : Type} {sel : Property → Option α} {mk : α → Property} {k : UInt8}
    (h : ∀ p v, sel p = some v → p = mk v) (hk : ∀ v, (mk v).id = k) (l : List Property) :
    Part l [k] (one mk (last sel l)) := by
  intro w
  have e : ksum w l [k] = wsum w (kind k l) := by simp [ksum]
  rw [e]
  cases hl : last sel l with
  | none => simp [Spec.one]
  | some v =>
    have h1 : v ∈ l.filterMap sel := List.mem_of_getLast? hl
    obtain ⟨p, hp, hs⟩ := List.mem_filterMap.1 h1
    have hp' := h p v hs
    subst hp'
    have : mk v ∈ kind k l := by simp [kind, hp, hk]
    have := wsum_mem (w := w) this
    simpa [Spec.one] using this

theorem Part.all {α : Type} {sel : Property → Option α} {mk : α → Property} {k : UInt8}
    (h : ∀ p v, sel p = some v → p = mk v) (hk : ∀ v, (mk v).id = k) (l : List Property) :
    Part l [k] ((Spec.all sel l).map mk) := by
  intro w
  have e : ksum w l [k] = wsum w (kind k l) := by simp [ksum]
  rw [e]
  clear e
  unfold Spec.all kind
  induction l with
  | nil => simp
  | cons p l ih =>
    cases hs : sel p with
    | none =>
      rw [List.filterMap_cons, hs]
      refine Nat.le_trans ih ?_
      by_cases hp : p.id = k
      · rw [List.filter_cons_of_pos (by simp [hp]), wsum_cons]; omega
      · rw [List.filter_cons_of_neg (by simp [hp])]; omega
    | some v =>
      rw [List.filterMap_cons, hs]
      have hp' := h p v hs
      subst hp'
      rw [List.filter_cons_of_pos (by simp [hk])]
      simp only [List.map_cons, wsum_cons]
      omega

theorem Part.users (l : List Property) :
    Part l [0x26] (Spec.users (Spec.all Property.userProperty? l)) :=
  Part.all (sel := Property.userProperty?) (mk := fun kv => .userProperty kv.1 kv.2)
    (by intro p v; cases p <;> simp [Property.userProperty?]; rintro rfl; exact ⟨rfl, rfl⟩)
    (fun _ => rfl) l

theorem last_some {α : Type} {sel : Property → Option α} {l : List Property} {p : Property} {v : α}
    (hp : p ∈ l) (hs : sel p = some v) : ∃ v', last sel l = some v' := by
  have : v ∈ l.filterMap sel := List.mem_filterMap.2 ⟨p, hp, hs⟩
  unfold last
  cases h : (l.filterMap sel).getLast? with
  | none => rw [List.getLast?_eq_none_iff] at h; rw [h] at this; simp at this
  | some v' => exact ⟨v', rfl⟩

theorem all_ne {α : Type} {sel : Property → Option α} {l : List Property} {p : Property} {v : α}
    (hp : p ∈ l) (hs : sel p = some v) : all sel l ≠ [] := by
  have : v ∈ all sel l := List.mem_filterMap.2 ⟨p, hp, hs⟩
  intro h; rw [h] at this; simp at this

theorem ConnectProperties.within (l : List Property) :
    Within (Spec.ConnectProperties.toList (Spec.ConnectProperties.ofList l)) l := by
  unfold Spec.ConnectProperties.toList Spec.ConnectProperties.ofList
  refine Part.within (((((((((Part.one (sel := Property.sessionExpiryInterval?) (mk := .sessionExpiryInterval) (k := 0x11) (by intro p v; cases p <;> simp [Property.sessionExpiryInterval?]) (fun _ => rfl) l).append
    (Part.one (sel := Property.receiveMaximum?) (mk := .receiveMaximum) (k := 0x21) (by intro p v; cases p <;> simp [Property.receiveMaximum?]) (fun _ => rfl) l)).append
    (Part.one (sel := Property.maximumPacketSize?) (mk := .maximumPacketSize) (k := 0x27) (by intro p v; cases p <;> simp [Property.maximumPacketSize?]) (fun _ => rfl) l)).append
    (Part.one (sel := Property.topicAliasMaximum?) (mk := .topicAliasMaximum) (k := 0x22) (by intro p v; cases p <;> simp [Property.topicAliasMaximum?]) (fun _ => rfl) l)).append
    (Part.one (sel := Property.requestResponseInformation?) (mk := .requestResponseInformation) (k := 0x19) (by intro p v; cases p <;> simp [Property.requestResponseInformation?]) (fun _ => rfl) l)).append
    (Part.one (sel := Property.requestProblemInformation?) (mk := .requestProblemInformation) (k := 0x17) (by intro p v; cases p <;> simp [Property.requestProblemInformation?]) (fun _ => rfl) l)).append
    (Part.users l)).append
    (Part.one (sel := Property.authenticationMethod?) (mk := .authenticationMethod) (k := 0x15) (by intro p v; cases p <;> simp [Property.authenticationMethod?]) (fun _ => rfl) l)).append
    (Part.one (sel := Property.authenticationData?) (mk := .authenticationData) (k := 0x16) (by intro p v; cases p <;> simp [Property.authenticationData?]) (fun _ => rfl) l)) ?_
  decide

theorem ConnectProperties.toList_ne {l : List Property} {p : Property} (hp : p ∈ l)
    (ha : p.id ∈ Spec.ConnectProperties.allowed) :
    Spec.ConnectProperties.toList (Spec.ConnectProperties.ofList l) ≠ [] := by
  cases p <;> first
    | (exfalso; revert ha; simp only [Property.id]; decide)
    | skip
  case sessionExpiryInterval =>
    obtain ⟨v', h⟩ := last_some (sel := Property.sessionExpiryInterval?) hp rfl
    simp [Spec.ConnectProperties.toList, Spec.ConnectProperties.ofList, h, one]
  case receiveMaximum =>
    obtain ⟨v', h⟩ := last_some (sel := Property.receiveMaximum?) hp rfl
    simp [Spec.ConnectProperties.toList, Spec.ConnectProperties.ofList, h, one]
  case maximumPacketSize =>
    obtain ⟨v', h⟩ := last_some (sel := Property.maximumPacketSize?) hp rfl
    simp [Spec.ConnectProperties.toList, Spec.ConnectProperties.ofList, h, one]
  case topicAliasMaximum =>
    obtain ⟨v', h⟩ := last_some (sel := Property.topicAliasMaximum?) hp rfl
    simp [Spec.ConnectProperties.toList, Spec.ConnectProperties.ofList, h, one]
  case requestResponseInformation =>
    obtain ⟨v', h⟩ := last_some (sel := Property.requestResponseInformation?) hp rfl
    simp [Spec.ConnectProperties.toList, Spec.ConnectProperties.ofList, h, one]
  case requestProblemInformation =>
    obtain ⟨v', h⟩ := last_some (sel := Property.requestProblemInformation?) hp rfl
    simp [Spec.ConnectProperties.toList, Spec.ConnectProperties.ofList, h, one]
  case userProperty =>
    have h := all_ne (sel := Property.userProperty?) hp rfl
    simp [Spec.ConnectProperties.toList, Spec.ConnectProperties.ofList, h, users]
  case authenticationMethod =>
    obtain ⟨v', h⟩ := last_some (sel := Property.authenticationMethod?) hp rfl
    simp [Spec.ConnectProperties.toList, Spec.ConnectProperties.ofList, h, one]
  case authenticationData =>
    obtain ⟨v', h⟩ := last_some (sel := Property.authenticationData?) hp rfl
    simp [Spec.ConnectProperties.toList, Spec.ConnectProperties.ofList, h, one]

theorem LastWillProperties.within (l : List Property) :
    Within (Spec.LastWillProperties.toList (Spec.LastWillProperties.ofList l)) l := by
  unfold Spec.LastWillProperties.toList Spec.LastWillProperties.ofList
  refine Part.within (((((((Part.one (sel := Property.willDelayInterval?) (mk := .willDelayInterval) (k := 0x18) (by intro p v; cases p <;> simp [Property.willDelayInterval?]) (fun _ => rfl) l).append
    (Part.one (sel := Property.payloadFormatIndicator?) (mk := .payloadFormatIndicator) (k := 0x01) (by intro p v; cases p <;> simp [Property.payloadFormatIndicator?]) (fun _ => rfl) l)).append
    (Part.one (sel := Property.messageExpiryInterval?) (mk := .messageExpiryInterval) (k := 0x02) (by intro p v; cases p <;> simp [Property.messageExpiryInterval?]) (fun _ => rfl) l)).append
    (Part.one (sel := Property.contentType?) (mk := .contentType) (k := 0x03) (by intro p v; cases p <;> simp [Property.contentType?]) (fun _ => rfl) l)).append
    (Part.one (sel := Property.responseTopic?) (mk := .responseTopic) (k := 0x08) (by intro p v; cases p <;> simp [Property.responseTopic?]) (fun _ => rfl) l)).append
    (Part.one (sel := Property.correlationData?) (mk := .correlationData) (k := 0x09) (by intro p v; cases p <;> simp [Property.correlationData?]) (fun _ => rfl) l)).append
    (Part.users l)) ?_
  decide

theorem LastWillProperties.toList_ne {l : List Property} {p : Property} (hp : p ∈ l)
    (ha : p.id ∈ Spec.LastWillProperties.allowed) :
    Spec.LastWillProperties.toList (Spec.LastWillProperties.ofList l) ≠ [] := by
  cases p <;> first
    | (exfalso; revert ha; simp only [Property.id]; decide)
    | skip
  case willDelayInterval =>
    obtain ⟨v', h⟩ := last_some (sel := Property.willDelayInterval?) hp rfl
    simp [Spec.LastWillProperties.toList, Spec.LastWillProperties.ofList, h, one]
  case payloadFormatIndicator =>
    obtain ⟨v', h⟩ := last_some (sel := Property.payloadFormatIndicator?) hp rfl
    simp [Spec.LastWillProperties.toList, Spec.LastWillProperties.ofList, h, one]
  case messageExpiryInterval =>
    obtain ⟨v', h⟩ := last_some (sel := Property.messageExpiryInterval?) hp rfl
    simp [Spec.LastWillProperties.toList, Spec.LastWillProperties.ofList, h, one]
  case contentType =>
    obtain ⟨v', h⟩ := last_some (sel := Property.contentType?) hp rfl
    simp [Spec.LastWillProperties.toList, Spec.LastWillProperties.ofList, h, one]
  case responseTopic =>
    obtain ⟨v', h⟩ := last_some (sel := Property.responseTopic?) hp rfl
    simp [Spec.LastWillProperties.toList, Spec.LastWillProperties.ofList, h, one]
  case correlationData =>
    obtain ⟨v', h⟩ := last_some (sel := Property.correlationData?) hp rfl
    simp [Spec.LastWillProperties.toList, Spec.LastWillProperties.ofList, h, one]
  case userProperty =>
    have h := all_ne (sel := Property.userProperty?) hp rfl
    simp [Spec.LastWillProperties.toList, Spec.LastWillProperties.ofList, h, users]

theorem ConnAckProperties.within (l : List Property) :
    Within (Spec.ConnAckProperties.toList (Spec.ConnAckProperties.ofList l)) l := by
  unfold Spec.ConnAckProperties.toList Spec.ConnAckProperties.ofList
  refine Part.within (((((((((((((((((Part.one (sel := Property.sessionExpiryInterval?) (mk := .sessionExpiryInterval) (k := 0x11) (by intro p v; cases p <;> simp [Property.sessionExpiryInterval?]) (fun _ => rfl) l).append
    (Part.one (sel := Property.receiveMaximum?) (mk := .receiveMaximum) (k := 0x21) (by intro p v; cases p <;> simp [Property.receiveMaximum?]) (fun _ => rfl) l)).append
    (Part.one (sel := Property.maximumQos?) (mk := .maximumQos) (k := 0x24) (by intro p v; cases p <;> simp [Property.maximumQos?]) (fun _ => rfl) l)).append
    (Part.one (sel := Property.retainAvailable?) (mk := .retainAvailable) (k := 0x25) (by intro p v; cases p <;> simp [Property.retainAvailable?]) (fun _ => rfl) l)).append
    (Part.one (sel := Property.maximumPacketSize?) (mk := .maximumPacketSize) (k := 0x27) (by intro p v; cases p <;> simp [Property.maximumPacketSize?]) (fun _ => rfl) l)).append
    (Part.one (sel := Property.assignedClientIdentifier?) (mk := .assignedClientIdentifier) (k := 0x12) (by intro p v; cases p <;> simp [Property.assignedClientIdentifier?]) (fun _ => rfl) l)).append
    (Part.one (sel := Property.topicAliasMaximum?) (mk := .topicAliasMaximum) (k := 0x22) (by intro p v; cases p <;> simp [Property.topicAliasMaximum?]) (fun _ => rfl) l)).append
    (Part.one (sel := Property.reasonString?) (mk := .reasonString) (k := 0x1F) (by intro p v; cases p <;> simp [Property.reasonString?]) (fun _ => rfl) l)).append
    (Part.users l)).append
    (Part.one (sel := Property.wildcardSubscriptionAvailable?) (mk := .wildcardSubscriptionAvailable) (k := 0x28) (by intro p v; cases p <;> simp [Property.wildcardSubscriptionAvailable?]) (fun _ => rfl) l)).append
    (Part.one (sel := Property.subscriptionIdentifierAvailable?) (mk := .subscriptionIdentifierAvailable) (k := 0x29) (by intro p v; cases p <;> simp [Property.subscriptionIdentifierAvailable?]) (fun _ => rfl) l)).append
    (Part.one (sel := Property.sharedSubscriptionAvailable?) (mk := .sharedSubscriptionAvailable) (k := 0x2A) (by intro p v; cases p <;> simp [Property.sharedSubscriptionAvailable?]) (fun _ => rfl) l)).append
    (Part.one (sel := Property.serverKeepAlive?) (mk := .serverKeepAlive) (k := 0x13) (by intro p v; cases p <;> simp [Property.serverKeepAlive?]) (fun _ => rfl) l)).append
    (Part.one (sel := Property.responseInformation?) (mk := .responseInformation) (k := 0x1A) (by intro p v; cases p <;> simp [Property.responseInformation?]) (fun _ => rfl) l)).append
    (Part.one (sel := Property.serverReference?) (mk := .serverReference) (k := 0x1C) (by intro p v; cases p <;> simp [Property.serverReference?]) (fun _ => rfl) l)).append
    (Part.one (sel := Property.authenticationMethod?) (mk := .authenticationMethod) (k := 0x15) (by intro p v; cases p <;> simp [Property.authenticationMethod?]) (fun _ => rfl) l)).append
    (Part.one (sel := Property.authenticationData?) (mk := .authenticationData) (k := 0x16) (by intro p v; cases p <;> simp [Property.authenticationData?]) (fun _ => rfl) l)) ?_
  decide

theorem ConnAckProperties.toList_ne {l : List Property} {p : Property} (hp : p ∈ l)
    (ha : p.id ∈ Spec.ConnAckProperties.allowed) :
    Spec.ConnAckProperties.toList (Spec.ConnAckProperties.ofList l) ≠ [] := by
  cases p <;> first
    | (exfalso; revert ha; simp only [Property.id]; decide)
    | skip
  case sessionExpiryInterval =>
    obtain ⟨v', h⟩ := last_some (sel := Property.sessionExpiryInterval?) hp rfl
    simp [Spec.ConnAckProperties.toList, Spec.ConnAckProperties.ofList, h, one]
  case receiveMaximum =>
    obtain ⟨v', h⟩ := last_some (sel := Property.receiveMaximum?) hp rfl
    simp [Spec.ConnAckProperties.toList, Spec.ConnAckProperties.ofList, h, one]
  case maximumQos =>
    obtain ⟨v', h⟩ := last_some (sel := Property.maximumQos?) hp rfl
    simp [Spec.ConnAckProperties.toList, Spec.ConnAckProperties.ofList, h, one]
  case retainAvailable =>
    obtain ⟨v', h⟩ := last_some (sel := Property.retainAvailable?) hp rfl
    simp [Spec.ConnAckProperties.toList, Spec.ConnAckProperties.ofList, h, one]
  case maximumPacketSize =>
    obtain ⟨v', h⟩ := last_some (sel := Property.maximumPacketSize?) hp rfl
    simp [Spec.ConnAckProperties.toList, Spec.ConnAckProperties.ofList, h, one]
  case assignedClientIdentifier =>
    obtain ⟨v', h⟩ := last_some (sel := Property.assignedClientIdentifier?) hp rfl
    simp [Spec.ConnAckProperties.toList, Spec.ConnAckProperties.ofList, h, one]
  case topicAliasMaximum =>
    obtain ⟨v', h⟩ := last_some (sel := Property.topicAliasMaximum?) hp rfl
    simp [Spec.ConnAckProperties.toList, Spec.ConnAckProperties.ofList, h, one]
  case reasonString =>
    obtain ⟨v', h⟩ := last_some (sel := Property.reasonString?) hp rfl
    simp [Spec.ConnAckProperties.toList, Spec.ConnAckProperties.ofList, h, one]
  case userProperty =>
    have h := all_ne (sel := Property.userProperty?) hp rfl
    simp [Spec.ConnAckProperties.toList, Spec.ConnAckProperties.ofList, h, users]
  case wildcardSubscriptionAvailable =>
    obtain ⟨v', h⟩ := last_some (sel := Property.wildcardSubscriptionAvailable?) hp rfl
    simp [Spec.ConnAckProperties.toList, Spec.ConnAckProperties.ofList, h, one]
  case subscriptionIdentifierAvailable =>
    obtain ⟨v', h⟩ := last_some (sel := Property.subscriptionIdentifierAvailable?) hp rfl
    simp [Spec.ConnAckProperties.toList, Spec.ConnAckProperties.ofList, h, one]
  case sharedSubscriptionAvailable =>
    obtain ⟨v', h⟩ := last_some (sel := Property.sharedSubscriptionAvailable?) hp rfl
    simp [Spec.ConnAckProperties.toList, Spec.ConnAckProperties.ofList, h, one]
  case serverKeepAlive =>
    obtain ⟨v', h⟩ := last_some (sel := Property.serverKeepAlive?) hp rfl
    simp [Spec.ConnAckProperties.toList, Spec.ConnAckProperties.ofList, h, one]
  case responseInformation =>
    obtain ⟨v', h⟩ := last_some (sel := Property.responseInformation?) hp rfl
    simp [Spec.ConnAckProperties.toList, Spec.ConnAckProperties.ofList, h, one]
  case serverReference =>
    obtain ⟨v', h⟩ := last_some (sel := Property.serverReference?) hp rfl
    simp [Spec.ConnAckProperties.toList, Spec.ConnAckProperties.ofList, h, one]
  case authenticationMethod =>
    obtain ⟨v', h⟩ := last_some (sel := Property.authenticationMethod?) hp rfl
    simp [Spec.ConnAckProperties.toList, Spec.ConnAckProperties.ofList, h, one]
  case authenticationData =>
    obtain ⟨v', h⟩ := last_some (sel := Property.authenticationData?) hp rfl
    simp [Spec.ConnAckProperties.toList, Spec.ConnAckProperties.ofList, h, one]

theorem PublishProperties.within (l : List Property) :
    Within (Spec.PublishProperties.toList (Spec.PublishProperties.ofList l)) l := by
  unfold Spec.PublishProperties.toList Spec.PublishProperties.ofList
  refine Part.within ((((((((Part.one (sel := Property.payloadFormatIndicator?) (mk := .payloadFormatIndicator) (k := 0x01) (by intro p v; cases p <;> simp [Property.payloadFormatIndicator?]) (fun _ => rfl) l).append
    (Part.one (sel := Property.messageExpiryInterval?) (mk := .messageExpiryInterval) (k := 0x02) (by intro p v; cases p <;> simp [Property.messageExpiryInterval?]) (fun _ => rfl) l)).append
    (Part.one (sel := Property.topicAlias?) (mk := .topicAlias) (k := 0x23) (by intro p v; cases p <;> simp [Property.topicAlias?]) (fun _ => rfl) l)).append
    (Part.one (sel := Property.responseTopic?) (mk := .responseTopic) (k := 0x08) (by intro p v; cases p <;> simp [Property.responseTopic?]) (fun _ => rfl) l)).append
    (Part.one (sel := Property.correlationData?) (mk := .correlationData) (k := 0x09) (by intro p v; cases p <;> simp [Property.correlationData?]) (fun _ => rfl) l)).append
    (Part.users l)).append
    (Part.all (sel := Property.subscriptionIdentifier?) (mk := .subscriptionIdentifier) (k := 0x0B) (by intro p v; cases p <;> simp [Property.subscriptionIdentifier?]) (fun _ => rfl) l)).append
    (Part.one (sel := Property.contentType?) (mk := .contentType) (k := 0x03) (by intro p v; cases p <;> simp [Property.contentType?]) (fun _ => rfl) l)) ?_
  decide

theorem PublishProperties.toList_ne {l : List Property} {p : Property} (hp : p ∈ l)
    (ha : p.id ∈ Spec.PublishProperties.allowed) :
    Spec.PublishProperties.toList (Spec.PublishProperties.ofList l) ≠ [] := by
  cases p <;> first
    | (exfalso; revert ha; simp only [Property.id]; decide)
    | skip
  case payloadFormatIndicator =>
    obtain ⟨v', h⟩ := last_some (sel := Property.payloadFormatIndicator?) hp rfl
    simp [Spec.PublishProperties.toList, Spec.PublishProperties.ofList, h, one]
  case messageExpiryInterval =>
    obtain ⟨v', h⟩ := last_some (sel := Property.messageExpiryInterval?) hp rfl
    simp [Spec.PublishProperties.toList, Spec.PublishProperties.ofList, h, one]
  case topicAlias =>
    obtain ⟨v', h⟩ := last_some (sel := Property.topicAlias?) hp rfl
    simp [Spec.PublishProperties.toList, Spec.PublishProperties.ofList, h, one]
  case responseTopic =>
    obtain ⟨v', h⟩ := last_some (sel := Property.responseTopic?) hp rfl
    simp [Spec.PublishProperties.toList, Spec.PublishProperties.ofList, h, one]
  case correlationData =>
    obtain ⟨v', h⟩ := last_some (sel := Property.correlationData?) hp rfl
    simp [Spec.PublishProperties.toList, Spec.PublishProperties.ofList, h, one]
  case userProperty =>
    have h := all_ne (sel := Property.userProperty?) hp rfl
    simp [Spec.PublishProperties.toList, Spec.PublishProperties.ofList, h, users]
  case subscriptionIdentifier =>
    have h := all_ne (sel := Property.subscriptionIdentifier?) hp rfl
    simp [Spec.PublishProperties.toList, Spec.PublishProperties.ofList, h, users]
  case contentType =>
    obtain ⟨v', h⟩ := last_some (sel := Property.contentType?) hp rfl
    simp [Spec.PublishProperties.toList, Spec.PublishProperties.ofList, h, one]

theorem PubAckProperties.within (l : List Property) :
    Within (Spec.PubAckProperties.toList (Spec.PubAckProperties.ofList l)) l := by
  unfold Spec.PubAckProperties.toList Spec.PubAckProperties.ofList
  refine Part.within ((Part.one (sel := Property.reasonString?) (mk := .reasonString) (k := 0x1F) (by intro p v; cases p <;> simp [Property.reasonString?]) (fun _ => rfl) l).append
    (Part.users l)) ?_
  decide

theorem PubAckProperties.toList_ne {l : List Property} {p : Property} (hp : p ∈ l)
    (ha : p.id ∈ Spec.PubAckProperties.allowed) :
    Spec.PubAckProperties.toList (Spec.PubAckProperties.ofList l) ≠ [] := by
  cases p <;> first
    | (exfalso; revert ha; simp only [Property.id]; decide)
    | skip
  case reasonString =>
    obtain ⟨v', h⟩ := last_some (sel := Property.reasonString?) hp rfl
    simp [Spec.PubAckProperties.toList, Spec.PubAckProperties.ofList, h, one]
  case userProperty =>
    have h := all_ne (sel := Property.userProperty?) hp rfl
    simp [Spec.PubAckProperties.toList, Spec.PubAckProperties.ofList, h, users]

theorem PubRecProperties.within (l : List Property) :
    Within (Spec.PubRecProperties.toList (Spec.PubRecProperties.ofList l)) l := by
  unfold Spec.PubRecProperties.toList Spec.PubRecProperties.ofList
  refine Part.within ((Part.one (sel := Property.reasonString?) (mk := .reasonString) (k := 0x1F) (by intro p v; cases p <;> simp [Property.reasonString?]) (fun _ => rfl) l).append
    (Part.users l)) ?_
  decide

theorem PubRecProperties.toList_ne {l : List Property} {p : Property} (hp : p ∈ l)
    (ha : p.id ∈ Spec.PubRecProperties.allowed) :
    Spec.PubRecProperties.toList (Spec.PubRecProperties.ofList l) ≠ [] := by
  cases p <;> first
    | (exfalso; revert ha; simp only [Property.id]; decide)
    | skip
  case reasonString =>
    obtain ⟨v', h⟩ := last_some (sel := Property.reasonString?) hp rfl
    simp [Spec.PubRecProperties.toList, Spec.PubRecProperties.ofList, h, one]
  case userProperty =>
    have h := all_ne (sel := Property.userProperty?) hp rfl
    simp [Spec.PubRecProperties.toList, Spec.PubRecProperties.ofList, h, users]

theorem PubRelProperties.within (l : List Property) :
    Within (Spec.PubRelProperties.toList (Spec.PubRelProperties.ofList l)) l := by
  unfold Spec.PubRelProperties.toList Spec.PubRelProperties.ofList
  refine Part.within ((Part.one (sel := Property.reasonString?) (mk := .reasonString) (k := 0x1F) (by intro p v; cases p <;> simp [Property.reasonString?]) (fun _ => rfl) l).append
    (Part.users l)) ?_
  decide

theorem PubRelProperties.toList_ne {l : List Property} {p : Property} (hp : p ∈ l)
    (ha : p.id ∈ Spec.PubRelProperties.allowed) :
    Spec.PubRelProperties.toList (Spec.PubRelProperties.ofList l) ≠ [] := by
  cases p <;> first
    | (exfalso; revert ha; simp only [Property.id]; decide)
    | skip
  case reasonString =>
    obtain ⟨v', h⟩ := last_some (sel := Property.reasonString?) hp rfl
    simp [Spec.PubRelProperties.toList, Spec.PubRelProperties.ofList, h, one]
  case userProperty =>
    have h := all_ne (sel := Property.userProperty?) hp rfl
    simp [Spec.PubRelProperties.toList, Spec.PubRelProperties.ofList, h, users]

theorem PubCompProperties.within (l : List Property) :
    Within (Spec.PubCompProperties.toList (Spec.PubCompProperties.ofList l)) l := by
  unfold Spec.PubCompProperties.toList Spec.PubCompProperties.ofList
  refine Part.within ((Part.one (sel := Property.reasonString?) (mk := .reasonString) (k := 0x1F) (by intro p v; cases p <;> simp [Property.reasonString?]) (fun _ => rfl) l).append
    (Part.users l)) ?_
  decide

theorem PubCompProperties.toList_ne {l : List Property} {p : Property} (hp : p ∈ l)
    (ha : p.id ∈ Spec.PubCompProperties.allowed) :
    Spec.PubCompProperties.toList (Spec.PubCompProperties.ofList l) ≠ [] := by
  cases p <;> first
    | (exfalso; revert ha; simp only [Property.id]; decide)
    | skip
  case reasonString =>
    obtain ⟨v', h⟩ := last_some (sel := Property.reasonString?) hp rfl
    simp [Spec.PubCompProperties.toList, Spec.PubCompProperties.ofList, h, one]
  case userProperty =>
    have h := all_ne (sel := Property.userProperty?) hp rfl
    simp [Spec.PubCompProperties.toList, Spec.PubCompProperties.ofList, h, users]

theorem SubscribeProperties.within (l : List Property) :
    Within (Spec.SubscribeProperties.toList (Spec.SubscribeProperties.ofList l)) l := by
  unfold Spec.SubscribeProperties.toList Spec.SubscribeProperties.ofList
  refine Part.within ((Part.one (sel := Property.subscriptionIdentifier?) (mk := .subscriptionIdentifier) (k := 0x0B) (by intro p v; cases p <;> simp [Property.subscriptionIdentifier?]) (fun _ => rfl) l).append
    (Part.users l)) ?_
  decide

theorem SubscribeProperties.toList_ne {l : List Property} {p : Property} (hp : p ∈ l)
    (ha : p.id ∈ Spec.SubscribeProperties.allowed) :
    Spec.SubscribeProperties.toList (Spec.SubscribeProperties.ofList l) ≠ [] := by
  cases p <;> first
    | (exfalso; revert ha; simp only [Property.id]; decide)
    | skip
  case subscriptionIdentifier =>
    obtain ⟨v', h⟩ := last_some (sel := Property.subscriptionIdentifier?) hp rfl
    simp [Spec.SubscribeProperties.toList, Spec.SubscribeProperties.ofList, h, one]
  case userProperty =>
    have h := all_ne (sel := Property.userProperty?) hp rfl
    simp [Spec.SubscribeProperties.toList, Spec.SubscribeProperties.ofList, h, users]

theorem SubAckProperties.within (l : List Property) :
    Within (Spec.SubAckProperties.toList (Spec.SubAckProperties.ofList l)) l := by
  unfold Spec.SubAckProperties.toList Spec.SubAckProperties.ofList
  refine Part.within ((Part.one (sel := Property.reasonString?) (mk := .reasonString) (k := 0x1F) (by intro p v; cases p <;> simp [Property.reasonString?]) (fun _ => rfl) l).append
    (Part.users l)) ?_
  decide

theorem SubAckProperties.toList_ne {l : List Property} {p : Property} (hp : p ∈ l)
    (ha : p.id ∈ Spec.SubAckProperties.allowed) :
    Spec.SubAckProperties.toList (Spec.SubAckProperties.ofList l) ≠ [] := by
  cases p <;> first
    | (exfalso; revert ha; simp only [Property.id]; decide)
    | skip
  case reasonString =>
    obtain ⟨v', h⟩ := last_some (sel := Property.reasonString?) hp rfl
    simp [Spec.SubAckProperties.toList, Spec.SubAckProperties.ofList, h, one]
  case userProperty =>
    have h := all_ne (sel := Property.userProperty?) hp rfl
    simp [Spec.SubAckProperties.toList, Spec.SubAckProperties.ofList, h, users]

theorem UnsubscribeProperties.within (l : List Property) :
    Within (Spec.UnsubscribeProperties.toList (Spec.UnsubscribeProperties.ofList l)) l := by
  unfold Spec.UnsubscribeProperties.toList Spec.UnsubscribeProperties.ofList
  refine Part.within (Part.users l) ?_
  decide

theorem UnsubscribeProperties.toList_ne {l : List Property} {p : Property} (hp : p ∈ l)
    (ha : p.id ∈ Spec.UnsubscribeProperties.allowed) :
    Spec.UnsubscribeProperties.toList (Spec.UnsubscribeProperties.ofList l) ≠ [] := by
  cases p <;> first
    | (exfalso; revert ha; simp only [Property.id]; decide)
    | skip
  case userProperty =>
    have h := all_ne (sel := Property.userProperty?) hp rfl
    simp [Spec.UnsubscribeProperties.toList, Spec.UnsubscribeProperties.ofList, h, users]

theorem UnsubAckProperties.within (l : List Property) :
    Within (Spec.UnsubAckProperties.toList (Spec.UnsubAckProperties.ofList l)) l := by
  unfold Spec.UnsubAckProperties.toList Spec.UnsubAckProperties.ofList
  refine Part.within ((Part.one (sel := Property.reasonString?) (mk := .reasonString) (k := 0x1F) (by intro p v; cases p <;> simp [Property.reasonString?]) (fun _ => rfl) l).append
    (Part.users l)) ?_
  decide

theorem UnsubAckProperties.toList_ne {l : List Property} {p : Property} (hp : p ∈ l)
    (ha : p.id ∈ Spec.UnsubAckProperties.allowed) :
    Spec.UnsubAckProperties.toList (Spec.UnsubAckProperties.ofList l) ≠ [] := by
  cases p <;> first
    | (exfalso; revert ha; simp only [Property.id]; decide)
    | skip
  case reasonString =>
    obtain ⟨v', h⟩ := last_some (sel := Property.reasonString?) hp rfl
    simp [Spec.UnsubAckProperties.toList, Spec.UnsubAckProperties.ofList, h, one]
  case userProperty =>
    have h := all_ne (sel := Property.userProperty?) hp rfl
    simp [Spec.UnsubAckProperties.toList, Spec.UnsubAckProperties.ofList, h, users]

theorem DisconnectProperties.within (l : List Property) :
    Within (Spec.DisconnectProperties.toList (Spec.DisconnectProperties.ofList l)) l := by
  unfold Spec.DisconnectProperties.toList Spec.DisconnectProperties.ofList
  refine Part.within ((((Part.one (sel := Property.sessionExpiryInterval?) (mk := .sessionExpiryInterval) (k := 0x11) (by intro p v; cases p <;> simp [Property.sessionExpiryInterval?]) (fun _ => rfl) l).append
    (Part.one (sel := Property.reasonString?) (mk := .reasonString) (k := 0x1F) (by intro p v; cases p <;> simp [Property.reasonString?]) (fun _ => rfl) l)).append
    (Part.users l)).append
    (Part.one (sel := Property.serverReference?) (mk := .serverReference) (k := 0x1C) (by intro p v; cases p <;> simp [Property.serverReference?]) (fun _ => rfl) l)) ?_
  decide

theorem DisconnectProperties.toList_ne {l : List Property} {p : Property} (hp : p ∈ l)
    (ha : p.id ∈ Spec.DisconnectProperties.allowed) :
    Spec.DisconnectProperties.toList (Spec.DisconnectProperties.ofList l) ≠ [] := by
  cases p <;> first
    | (exfalso; revert ha; simp only [Property.id]; decide)
    | skip
  case sessionExpiryInterval =>
    obtain ⟨v', h⟩ := last_some (sel := Property.sessionExpiryInterval?) hp rfl
    simp [Spec.DisconnectProperties.toList, Spec.DisconnectProperties.ofList, h, one]
  case reasonString =>
    obtain ⟨v', h⟩ := last_some (sel := Property.reasonString?) hp rfl
    simp [Spec.DisconnectProperties.toList, Spec.DisconnectProperties.ofList, h, one]
  case userProperty =>
    have h := all_ne (sel := Property.userProperty?) hp rfl
    simp [Spec.DisconnectProperties.toList, Spec.DisconnectProperties.ofList, h, users]
  case serverReference =>
    obtain ⟨v', h⟩ := last_some (sel := Property.serverReference?) hp rfl
    simp [Spec.DisconnectProperties.toList, Spec.DisconnectProperties.ofList, h, one]

end Mqtt
