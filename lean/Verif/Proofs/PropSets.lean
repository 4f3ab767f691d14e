import Verif.Proofs.PropLoop
/-
The thirteen property readers are instances of the generic one, and `ofList` inverts `toList`.
-/
set_option linter.unusedSimpArgs false

namespace Mqtt

open Spec

theorem last_append_some {α : Type} (sel : Property → Option α) (l : List Property) (p : Property)
    (v : α) (h : sel p = some v) : last sel (l ++ [p]) = some v := by
  simp [last, h]

theorem last_append_none {α : Type} (sel : Property → Option α) (l : List Property) (p : Property)
    (h : sel p = none) : last sel (l ++ [p]) = last sel l := by
  simp [last, h]

theorem all_append {α : Type} (sel : Property → Option α) (l l' : List Property) :
    all sel (l ++ l') = all sel l ++ all sel l' := by simp [all]

theorem all_one {α β : Type} (sel : Property → Option α) (mk : β → Property) (o : Option β) :
    all sel (one mk o) = (o.bind fun v => sel (mk v)).toList := by
  cases o with
  | none => rfl
  | some v => cases h : sel (mk v) <;> simp [all, one, h, List.filterMap_cons]

theorem all_map {α β : Type} (sel : Property → Option α) (mk : β → Property) (l : List β) :
    all sel (l.map mk) = l.filterMap fun v => sel (mk v) := by
  simp [all, List.filterMap_map, Function.comp_def]

theorem filterMap_const_none {α β : Type} (l : List β) :
    (l.filterMap fun _ => (none : Option α)) = [] := by induction l <;> simp_all

theorem filterMap_some' {α : Type} (l : List α) : (l.filterMap fun v => some v) = l := by
  induction l <;> simp_all [List.filterMap_cons]

theorem filterMap_some_pair {α β : Type} (l : List (α × β)) :
    (l.filterMap fun v => some (v.1, v.2)) = l := filterMap_some' l

theorem bind_const_none {α β : Type} (o : Option β) :
    (o.bind fun _ => (none : Option α)) = none := by cases o <;> rfl

theorem bind_some' {α : Type} (o : Option α) : (o.bind fun v => some v) = o := by cases o <;> rfl

theorem last_eq {α : Type} (sel : Property → Option α) (l : List Property) :
    last sel l = (all sel l).getLast? := rfl

theorem option_toList_getLast {α : Type} (o : Option α) : o.toList.getLast? = o := by
  cases o <;> rfl

/-- Solves `ofList (l ++ [p]) = { ofList l with field := … }`. -/
macro "ofList_tac" : tactic => `(tactic|
  (intro prop ty l c
   cases ty <;>
   first
   | rfl
   | (refine Eq.trans ?_ (if_pos (by decide)).symm
      simp only [readVal, bind_assoc, pure_bind]
      repeat' (first | rfl | (apply bind_congr; intro _))
      all_goals
        simp [last, all, List.filterMap_cons, Property.payloadFormatIndicator?, Property.messageExpiryInterval?,
          Property.contentType?, Property.responseTopic?, Property.correlationData?,
          Property.subscriptionIdentifier?, Property.sessionExpiryInterval?,
          Property.assignedClientIdentifier?, Property.serverKeepAlive?,
          Property.authenticationMethod?, Property.authenticationData?,
          Property.requestProblemInformation?, Property.willDelayInterval?,
          Property.requestResponseInformation?, Property.responseInformation?,
          Property.serverReference?, Property.reasonString?, Property.receiveMaximum?,
          Property.topicAliasMaximum?, Property.topicAlias?, Property.maximumQos?,
          Property.retainAvailable?, Property.userProperty?, Property.maximumPacketSize?,
          Property.wildcardSubscriptionAvailable?, Property.subscriptionIdentifierAvailable?,
          Property.sharedSubscriptionAvailable?])))

theorem ConnectProperties.stepSpec (mode : StrMode) : StepSpec (ConnectProperties.step mode) mode
    Spec.ConnectProperties.ofList Spec.ConnectProperties.allowed := by
  unfold ConnectProperties.step Spec.ConnectProperties.ofList
  ofList_tac

theorem ConnectProperties.read_eq (mode : StrMode) : ConnectProperties.read mode =
    gRead mode Spec.ConnectProperties.allowed >>= fun o => pure (o.map Spec.ConnectProperties.ofList) :=
  readProps_eq (ConnectProperties.stepSpec mode) rfl

theorem ConnectProperties.ofList_toList (p : ConnectProperties) :
    Spec.ConnectProperties.ofList (Spec.ConnectProperties.toList p) = p := by
  unfold Spec.ConnectProperties.ofList Spec.ConnectProperties.toList users
  simp only [last_eq, all_append, all_one, all_map, filterMap_const_none, filterMap_some',
    filterMap_some_pair,
    bind_const_none, bind_some', Option.toList_none, List.append_nil, List.nil_append,
    option_toList_getLast, Property.payloadFormatIndicator?, Property.messageExpiryInterval?,
    Property.contentType?, Property.responseTopic?, Property.correlationData?,
    Property.subscriptionIdentifier?, Property.sessionExpiryInterval?,
    Property.assignedClientIdentifier?, Property.serverKeepAlive?,
    Property.authenticationMethod?, Property.authenticationData?,
    Property.requestProblemInformation?, Property.willDelayInterval?,
    Property.requestResponseInformation?, Property.responseInformation?,
    Property.serverReference?, Property.reasonString?, Property.receiveMaximum?,
    Property.topicAliasMaximum?, Property.topicAlias?, Property.maximumQos?,
    Property.retainAvailable?, Property.userProperty?, Property.maximumPacketSize?,
    Property.wildcardSubscriptionAvailable?, Property.subscriptionIdentifierAvailable?,
    Property.sharedSubscriptionAvailable?]

theorem ConnectProperties.toList_allowed (p : ConnectProperties) :
    ∀ q ∈ Spec.ConnectProperties.toList p, q.id ∈ Spec.ConnectProperties.allowed := by
  intro q hq
  simp only [Spec.ConnectProperties.toList, List.mem_append, one, users, List.mem_map] at hq
  rcases hq with ((((((((hq | hq)  | hq)  | hq)  | hq)  | hq)  | hq)  | hq)  | hq) <;>
    (obtain ⟨_, _, rfl⟩ := hq; simp only [Property.id]; decide)

theorem LastWillProperties.stepSpec (mode : StrMode) : StepSpec (LastWillProperties.step mode) mode
    Spec.LastWillProperties.ofList Spec.LastWillProperties.allowed := by
  unfold LastWillProperties.step Spec.LastWillProperties.ofList
  ofList_tac

theorem LastWillProperties.read_eq (mode : StrMode) : LastWillProperties.read mode =
    gRead mode Spec.LastWillProperties.allowed >>= fun o => pure (o.map Spec.LastWillProperties.ofList) :=
  readProps_eq (LastWillProperties.stepSpec mode) rfl

theorem LastWillProperties.ofList_toList (p : LastWillProperties) :
    Spec.LastWillProperties.ofList (Spec.LastWillProperties.toList p) = p := by
  unfold Spec.LastWillProperties.ofList Spec.LastWillProperties.toList users
  simp only [last_eq, all_append, all_one, all_map, filterMap_const_none, filterMap_some',
    filterMap_some_pair,
    bind_const_none, bind_some', Option.toList_none, List.append_nil, List.nil_append,
    option_toList_getLast, Property.payloadFormatIndicator?, Property.messageExpiryInterval?,
    Property.contentType?, Property.responseTopic?, Property.correlationData?,
    Property.subscriptionIdentifier?, Property.sessionExpiryInterval?,
    Property.assignedClientIdentifier?, Property.serverKeepAlive?,
    Property.authenticationMethod?, Property.authenticationData?,
    Property.requestProblemInformation?, Property.willDelayInterval?,
    Property.requestResponseInformation?, Property.responseInformation?,
    Property.serverReference?, Property.reasonString?, Property.receiveMaximum?,
    Property.topicAliasMaximum?, Property.topicAlias?, Property.maximumQos?,
    Property.retainAvailable?, Property.userProperty?, Property.maximumPacketSize?,
    Property.wildcardSubscriptionAvailable?, Property.subscriptionIdentifierAvailable?,
    Property.sharedSubscriptionAvailable?]

theorem LastWillProperties.toList_allowed (p : LastWillProperties) :
    ∀ q ∈ Spec.LastWillProperties.toList p, q.id ∈ Spec.LastWillProperties.allowed := by
  intro q hq
  simp only [Spec.LastWillProperties.toList, List.mem_append, one, users, List.mem_map] at hq
  rcases hq with ((((((hq | hq)  | hq)  | hq)  | hq)  | hq)  | hq) <;>
    (obtain ⟨_, _, rfl⟩ := hq; simp only [Property.id]; decide)

theorem ConnAckProperties.stepSpec (mode : StrMode) : StepSpec (ConnAckProperties.step mode) mode
    Spec.ConnAckProperties.ofList Spec.ConnAckProperties.allowed := by
  unfold ConnAckProperties.step Spec.ConnAckProperties.ofList
  ofList_tac

theorem ConnAckProperties.read_eq (mode : StrMode) : ConnAckProperties.read mode =
    gRead mode Spec.ConnAckProperties.allowed >>= fun o => pure (o.map Spec.ConnAckProperties.ofList) :=
  readProps_eq (ConnAckProperties.stepSpec mode) rfl

theorem ConnAckProperties.ofList_toList (p : ConnAckProperties) :
    Spec.ConnAckProperties.ofList (Spec.ConnAckProperties.toList p) = p := by
  unfold Spec.ConnAckProperties.ofList Spec.ConnAckProperties.toList users
  simp only [last_eq, all_append, all_one, all_map, filterMap_const_none, filterMap_some',
    filterMap_some_pair,
    bind_const_none, bind_some', Option.toList_none, List.append_nil, List.nil_append,
    option_toList_getLast, Property.payloadFormatIndicator?, Property.messageExpiryInterval?,
    Property.contentType?, Property.responseTopic?, Property.correlationData?,
    Property.subscriptionIdentifier?, Property.sessionExpiryInterval?,
    Property.assignedClientIdentifier?, Property.serverKeepAlive?,
    Property.authenticationMethod?, Property.authenticationData?,
    Property.requestProblemInformation?, Property.willDelayInterval?,
    Property.requestResponseInformation?, Property.responseInformation?,
    Property.serverReference?, Property.reasonString?, Property.receiveMaximum?,
    Property.topicAliasMaximum?, Property.topicAlias?, Property.maximumQos?,
    Property.retainAvailable?, Property.userProperty?, Property.maximumPacketSize?,
    Property.wildcardSubscriptionAvailable?, Property.subscriptionIdentifierAvailable?,
    Property.sharedSubscriptionAvailable?]

theorem ConnAckProperties.toList_allowed (p : ConnAckProperties) :
    ∀ q ∈ Spec.ConnAckProperties.toList p, q.id ∈ Spec.ConnAckProperties.allowed := by
  intro q hq
  simp only [Spec.ConnAckProperties.toList, List.mem_append, one, users, List.mem_map] at hq
  rcases hq with ((((((((((((((((hq | hq)  | hq)  | hq)  | hq)  | hq)  | hq)  | hq)  | hq)  | hq)  | hq)  | hq)  | hq)  | hq)  | hq)  | hq)  | hq) <;>
    (obtain ⟨_, _, rfl⟩ := hq; simp only [Property.id]; decide)

theorem PublishProperties.stepSpec (mode : StrMode) : StepSpec (PublishProperties.step mode) mode
    Spec.PublishProperties.ofList Spec.PublishProperties.allowed := by
  unfold PublishProperties.step Spec.PublishProperties.ofList
  ofList_tac

theorem PublishProperties.read_eq (mode : StrMode) : PublishProperties.read mode =
    gRead mode Spec.PublishProperties.allowed >>= fun o => pure (o.map Spec.PublishProperties.ofList) :=
  readProps_eq (PublishProperties.stepSpec mode) rfl

theorem PublishProperties.ofList_toList (p : PublishProperties) :
    Spec.PublishProperties.ofList (Spec.PublishProperties.toList p) = p := by
  unfold Spec.PublishProperties.ofList Spec.PublishProperties.toList users
  simp only [last_eq, all_append, all_one, all_map, filterMap_const_none, filterMap_some',
    filterMap_some_pair,
    bind_const_none, bind_some', Option.toList_none, List.append_nil, List.nil_append,
    option_toList_getLast, Property.payloadFormatIndicator?, Property.messageExpiryInterval?,
    Property.contentType?, Property.responseTopic?, Property.correlationData?,
    Property.subscriptionIdentifier?, Property.sessionExpiryInterval?,
    Property.assignedClientIdentifier?, Property.serverKeepAlive?,
    Property.authenticationMethod?, Property.authenticationData?,
    Property.requestProblemInformation?, Property.willDelayInterval?,
    Property.requestResponseInformation?, Property.responseInformation?,
    Property.serverReference?, Property.reasonString?, Property.receiveMaximum?,
    Property.topicAliasMaximum?, Property.topicAlias?, Property.maximumQos?,
    Property.retainAvailable?, Property.userProperty?, Property.maximumPacketSize?,
    Property.wildcardSubscriptionAvailable?, Property.subscriptionIdentifierAvailable?,
    Property.sharedSubscriptionAvailable?]

theorem PublishProperties.toList_allowed (p : PublishProperties) :
    ∀ q ∈ Spec.PublishProperties.toList p, q.id ∈ Spec.PublishProperties.allowed := by
  intro q hq
  simp only [Spec.PublishProperties.toList, List.mem_append, one, users, List.mem_map] at hq
  rcases hq with (((((((hq | hq)  | hq)  | hq)  | hq)  | hq)  | hq)  | hq) <;>
    (obtain ⟨_, _, rfl⟩ := hq; simp only [Property.id]; decide)

theorem PubAckProperties.stepSpec (mode : StrMode) : StepSpec (PubAckProperties.step mode) mode
    Spec.PubAckProperties.ofList Spec.PubAckProperties.allowed := by
  unfold PubAckProperties.step Spec.PubAckProperties.ofList
  ofList_tac

theorem PubAckProperties.read_eq (mode : StrMode) : PubAckProperties.read mode =
    gRead mode Spec.PubAckProperties.allowed >>= fun o => pure (o.map Spec.PubAckProperties.ofList) :=
  readProps_eq (PubAckProperties.stepSpec mode) rfl

theorem PubAckProperties.ofList_toList (p : PubAckProperties) :
    Spec.PubAckProperties.ofList (Spec.PubAckProperties.toList p) = p := by
  unfold Spec.PubAckProperties.ofList Spec.PubAckProperties.toList users
  simp only [last_eq, all_append, all_one, all_map, filterMap_const_none, filterMap_some',
    filterMap_some_pair,
    bind_const_none, bind_some', Option.toList_none, List.append_nil, List.nil_append,
    option_toList_getLast, Property.payloadFormatIndicator?, Property.messageExpiryInterval?,
    Property.contentType?, Property.responseTopic?, Property.correlationData?,
    Property.subscriptionIdentifier?, Property.sessionExpiryInterval?,
    Property.assignedClientIdentifier?, Property.serverKeepAlive?,
    Property.authenticationMethod?, Property.authenticationData?,
    Property.requestProblemInformation?, Property.willDelayInterval?,
    Property.requestResponseInformation?, Property.responseInformation?,
    Property.serverReference?, Property.reasonString?, Property.receiveMaximum?,
    Property.topicAliasMaximum?, Property.topicAlias?, Property.maximumQos?,
    Property.retainAvailable?, Property.userProperty?, Property.maximumPacketSize?,
    Property.wildcardSubscriptionAvailable?, Property.subscriptionIdentifierAvailable?,
    Property.sharedSubscriptionAvailable?]

theorem PubAckProperties.toList_allowed (p : PubAckProperties) :
    ∀ q ∈ Spec.PubAckProperties.toList p, q.id ∈ Spec.PubAckProperties.allowed := by
  intro q hq
  simp only [Spec.PubAckProperties.toList, List.mem_append, one, users, List.mem_map] at hq
  rcases hq with (hq | hq) <;>
    (obtain ⟨_, _, rfl⟩ := hq; simp only [Property.id]; decide)

theorem PubRecProperties.stepSpec (mode : StrMode) : StepSpec (PubRecProperties.step mode) mode
    Spec.PubRecProperties.ofList Spec.PubRecProperties.allowed := by
  unfold PubRecProperties.step Spec.PubRecProperties.ofList
  ofList_tac

theorem PubRecProperties.read_eq (mode : StrMode) : PubRecProperties.read mode =
    gRead mode Spec.PubRecProperties.allowed >>= fun o => pure (o.map Spec.PubRecProperties.ofList) :=
  readProps_eq (PubRecProperties.stepSpec mode) rfl

theorem PubRecProperties.ofList_toList (p : PubRecProperties) :
    Spec.PubRecProperties.ofList (Spec.PubRecProperties.toList p) = p := by
  unfold Spec.PubRecProperties.ofList Spec.PubRecProperties.toList users
  simp only [last_eq, all_append, all_one, all_map, filterMap_const_none, filterMap_some',
    filterMap_some_pair,
    bind_const_none, bind_some', Option.toList_none, List.append_nil, List.nil_append,
    option_toList_getLast, Property.payloadFormatIndicator?, Property.messageExpiryInterval?,
    Property.contentType?, Property.responseTopic?, Property.correlationData?,
    Property.subscriptionIdentifier?, Property.sessionExpiryInterval?,
    Property.assignedClientIdentifier?, Property.serverKeepAlive?,
    Property.authenticationMethod?, Property.authenticationData?,
    Property.requestProblemInformation?, Property.willDelayInterval?,
    Property.requestResponseInformation?, Property.responseInformation?,
    Property.serverReference?, Property.reasonString?, Property.receiveMaximum?,
    Property.topicAliasMaximum?, Property.topicAlias?, Property.maximumQos?,
    Property.retainAvailable?, Property.userProperty?, Property.maximumPacketSize?,
    Property.wildcardSubscriptionAvailable?, Property.subscriptionIdentifierAvailable?,
    Property.sharedSubscriptionAvailable?]

theorem PubRecProperties.toList_allowed (p : PubRecProperties) :
    ∀ q ∈ Spec.PubRecProperties.toList p, q.id ∈ Spec.PubRecProperties.allowed := by
  intro q hq
  simp only [Spec.PubRecProperties.toList, List.mem_append, one, users, List.mem_map] at hq
  rcases hq with (hq | hq) <;>
    (obtain ⟨_, _, rfl⟩ := hq; simp only [Property.id]; decide)

theorem PubRelProperties.stepSpec (mode : StrMode) : StepSpec (PubRelProperties.step mode) mode
    Spec.PubRelProperties.ofList Spec.PubRelProperties.allowed := by
  unfold PubRelProperties.step Spec.PubRelProperties.ofList
  ofList_tac

theorem PubRelProperties.read_eq (mode : StrMode) : PubRelProperties.read mode =
    gRead mode Spec.PubRelProperties.allowed >>= fun o => pure (o.map Spec.PubRelProperties.ofList) :=
  readProps_eq (PubRelProperties.stepSpec mode) rfl

theorem PubRelProperties.ofList_toList (p : PubRelProperties) :
    Spec.PubRelProperties.ofList (Spec.PubRelProperties.toList p) = p := by
  unfold Spec.PubRelProperties.ofList Spec.PubRelProperties.toList users
  simp only [last_eq, all_append, all_one, all_map, filterMap_const_none, filterMap_some',
    filterMap_some_pair,
    bind_const_none, bind_some', Option.toList_none, List.append_nil, List.nil_append,
    option_toList_getLast, Property.payloadFormatIndicator?, Property.messageExpiryInterval?,
    Property.contentType?, Property.responseTopic?, Property.correlationData?,
    Property.subscriptionIdentifier?, Property.sessionExpiryInterval?,
    Property.assignedClientIdentifier?, Property.serverKeepAlive?,
    Property.authenticationMethod?, Property.authenticationData?,
    Property.requestProblemInformation?, Property.willDelayInterval?,
    Property.requestResponseInformation?, Property.responseInformation?,
    Property.serverReference?, Property.reasonString?, Property.receiveMaximum?,
    Property.topicAliasMaximum?, Property.topicAlias?, Property.maximumQos?,
    Property.retainAvailable?, Property.userProperty?, Property.maximumPacketSize?,
    Property.wildcardSubscriptionAvailable?, Property.subscriptionIdentifierAvailable?,
    Property.sharedSubscriptionAvailable?]

theorem PubRelProperties.toList_allowed (p : PubRelProperties) :
    ∀ q ∈ Spec.PubRelProperties.toList p, q.id ∈ Spec.PubRelProperties.allowed := by
  intro q hq
  simp only [Spec.PubRelProperties.toList, List.mem_append, one, users, List.mem_map] at hq
  rcases hq with (hq | hq) <;>
    (obtain ⟨_, _, rfl⟩ := hq; simp only [Property.id]; decide)

theorem PubCompProperties.stepSpec (mode : StrMode) : StepSpec (PubCompProperties.step mode) mode
    Spec.PubCompProperties.ofList Spec.PubCompProperties.allowed := by
  unfold PubCompProperties.step Spec.PubCompProperties.ofList
  ofList_tac

theorem PubCompProperties.read_eq (mode : StrMode) : PubCompProperties.read mode =
    gRead mode Spec.PubCompProperties.allowed >>= fun o => pure (o.map Spec.PubCompProperties.ofList) :=
  readProps_eq (PubCompProperties.stepSpec mode) rfl

theorem PubCompProperties.ofList_toList (p : PubCompProperties) :
    Spec.PubCompProperties.ofList (Spec.PubCompProperties.toList p) = p := by
  unfold Spec.PubCompProperties.ofList Spec.PubCompProperties.toList users
  simp only [last_eq, all_append, all_one, all_map, filterMap_const_none, filterMap_some',
    filterMap_some_pair,
    bind_const_none, bind_some', Option.toList_none, List.append_nil, List.nil_append,
    option_toList_getLast, Property.payloadFormatIndicator?, Property.messageExpiryInterval?,
    Property.contentType?, Property.responseTopic?, Property.correlationData?,
    Property.subscriptionIdentifier?, Property.sessionExpiryInterval?,
    Property.assignedClientIdentifier?, Property.serverKeepAlive?,
    Property.authenticationMethod?, Property.authenticationData?,
    Property.requestProblemInformation?, Property.willDelayInterval?,
    Property.requestResponseInformation?, Property.responseInformation?,
    Property.serverReference?, Property.reasonString?, Property.receiveMaximum?,
    Property.topicAliasMaximum?, Property.topicAlias?, Property.maximumQos?,
    Property.retainAvailable?, Property.userProperty?, Property.maximumPacketSize?,
    Property.wildcardSubscriptionAvailable?, Property.subscriptionIdentifierAvailable?,
    Property.sharedSubscriptionAvailable?]

theorem PubCompProperties.toList_allowed (p : PubCompProperties) :
    ∀ q ∈ Spec.PubCompProperties.toList p, q.id ∈ Spec.PubCompProperties.allowed := by
  intro q hq
  simp only [Spec.PubCompProperties.toList, List.mem_append, one, users, List.mem_map] at hq
  rcases hq with (hq | hq) <;>
    (obtain ⟨_, _, rfl⟩ := hq; simp only [Property.id]; decide)

theorem SubscribeProperties.stepSpec (mode : StrMode) : StepSpec (SubscribeProperties.step mode) mode
    Spec.SubscribeProperties.ofList Spec.SubscribeProperties.allowed := by
  unfold SubscribeProperties.step Spec.SubscribeProperties.ofList
  ofList_tac

theorem SubscribeProperties.read_eq (mode : StrMode) : SubscribeProperties.read mode =
    gRead mode Spec.SubscribeProperties.allowed >>= fun o => pure (o.map Spec.SubscribeProperties.ofList) :=
  readProps_eq (SubscribeProperties.stepSpec mode) rfl

theorem SubscribeProperties.ofList_toList (p : SubscribeProperties) :
    Spec.SubscribeProperties.ofList (Spec.SubscribeProperties.toList p) = p := by
  unfold Spec.SubscribeProperties.ofList Spec.SubscribeProperties.toList users
  simp only [last_eq, all_append, all_one, all_map, filterMap_const_none, filterMap_some',
    filterMap_some_pair,
    bind_const_none, bind_some', Option.toList_none, List.append_nil, List.nil_append,
    option_toList_getLast, Property.payloadFormatIndicator?, Property.messageExpiryInterval?,
    Property.contentType?, Property.responseTopic?, Property.correlationData?,
    Property.subscriptionIdentifier?, Property.sessionExpiryInterval?,
    Property.assignedClientIdentifier?, Property.serverKeepAlive?,
    Property.authenticationMethod?, Property.authenticationData?,
    Property.requestProblemInformation?, Property.willDelayInterval?,
    Property.requestResponseInformation?, Property.responseInformation?,
    Property.serverReference?, Property.reasonString?, Property.receiveMaximum?,
    Property.topicAliasMaximum?, Property.topicAlias?, Property.maximumQos?,
    Property.retainAvailable?, Property.userProperty?, Property.maximumPacketSize?,
    Property.wildcardSubscriptionAvailable?, Property.subscriptionIdentifierAvailable?,
    Property.sharedSubscriptionAvailable?]

theorem SubscribeProperties.toList_allowed (p : SubscribeProperties) :
    ∀ q ∈ Spec.SubscribeProperties.toList p, q.id ∈ Spec.SubscribeProperties.allowed := by
  intro q hq
  simp only [Spec.SubscribeProperties.toList, List.mem_append, one, users, List.mem_map] at hq
  rcases hq with (hq | hq) <;>
    (obtain ⟨_, _, rfl⟩ := hq; simp only [Property.id]; decide)

theorem SubAckProperties.stepSpec (mode : StrMode) : StepSpec (SubAckProperties.step mode) mode
    Spec.SubAckProperties.ofList Spec.SubAckProperties.allowed := by
  unfold SubAckProperties.step Spec.SubAckProperties.ofList
  ofList_tac

theorem SubAckProperties.read_eq (mode : StrMode) : SubAckProperties.read mode =
    gRead mode Spec.SubAckProperties.allowed >>= fun o => pure (o.map Spec.SubAckProperties.ofList) :=
  readProps_eq (SubAckProperties.stepSpec mode) rfl

theorem SubAckProperties.ofList_toList (p : SubAckProperties) :
    Spec.SubAckProperties.ofList (Spec.SubAckProperties.toList p) = p := by
  unfold Spec.SubAckProperties.ofList Spec.SubAckProperties.toList users
  simp only [last_eq, all_append, all_one, all_map, filterMap_const_none, filterMap_some',
    filterMap_some_pair,
    bind_const_none, bind_some', Option.toList_none, List.append_nil, List.nil_append,
    option_toList_getLast, Property.payloadFormatIndicator?, Property.messageExpiryInterval?,
    Property.contentType?, Property.responseTopic?, Property.correlationData?,
    Property.subscriptionIdentifier?, Property.sessionExpiryInterval?,
    Property.assignedClientIdentifier?, Property.serverKeepAlive?,
    Property.authenticationMethod?, Property.authenticationData?,
    Property.requestProblemInformation?, Property.willDelayInterval?,
    Property.requestResponseInformation?, Property.responseInformation?,
    Property.serverReference?, Property.reasonString?, Property.receiveMaximum?,
    Property.topicAliasMaximum?, Property.topicAlias?, Property.maximumQos?,
    Property.retainAvailable?, Property.userProperty?, Property.maximumPacketSize?,
    Property.wildcardSubscriptionAvailable?, Property.subscriptionIdentifierAvailable?,
    Property.sharedSubscriptionAvailable?]

theorem SubAckProperties.toList_allowed (p : SubAckProperties) :
    ∀ q ∈ Spec.SubAckProperties.toList p, q.id ∈ Spec.SubAckProperties.allowed := by
  intro q hq
  simp only [Spec.SubAckProperties.toList, List.mem_append, one, users, List.mem_map] at hq
  rcases hq with (hq | hq) <;>
    (obtain ⟨_, _, rfl⟩ := hq; simp only [Property.id]; decide)

theorem UnsubscribeProperties.stepSpec (mode : StrMode) : StepSpec (UnsubscribeProperties.step mode) mode
    Spec.UnsubscribeProperties.ofList Spec.UnsubscribeProperties.allowed := by
  unfold UnsubscribeProperties.step Spec.UnsubscribeProperties.ofList
  ofList_tac

theorem UnsubscribeProperties.read_eq (mode : StrMode) : UnsubscribeProperties.read mode =
    gRead mode Spec.UnsubscribeProperties.allowed >>= fun o => pure (o.map Spec.UnsubscribeProperties.ofList) :=
  readProps_eq (UnsubscribeProperties.stepSpec mode) rfl

theorem UnsubscribeProperties.ofList_toList (p : UnsubscribeProperties) :
    Spec.UnsubscribeProperties.ofList (Spec.UnsubscribeProperties.toList p) = p := by
  unfold Spec.UnsubscribeProperties.ofList Spec.UnsubscribeProperties.toList users
  simp only [last_eq, all_append, all_one, all_map, filterMap_const_none, filterMap_some',
    filterMap_some_pair,
    bind_const_none, bind_some', Option.toList_none, List.append_nil, List.nil_append,
    option_toList_getLast, Property.payloadFormatIndicator?, Property.messageExpiryInterval?,
    Property.contentType?, Property.responseTopic?, Property.correlationData?,
    Property.subscriptionIdentifier?, Property.sessionExpiryInterval?,
    Property.assignedClientIdentifier?, Property.serverKeepAlive?,
    Property.authenticationMethod?, Property.authenticationData?,
    Property.requestProblemInformation?, Property.willDelayInterval?,
    Property.requestResponseInformation?, Property.responseInformation?,
    Property.serverReference?, Property.reasonString?, Property.receiveMaximum?,
    Property.topicAliasMaximum?, Property.topicAlias?, Property.maximumQos?,
    Property.retainAvailable?, Property.userProperty?, Property.maximumPacketSize?,
    Property.wildcardSubscriptionAvailable?, Property.subscriptionIdentifierAvailable?,
    Property.sharedSubscriptionAvailable?]

theorem UnsubscribeProperties.toList_allowed (p : UnsubscribeProperties) :
    ∀ q ∈ Spec.UnsubscribeProperties.toList p, q.id ∈ Spec.UnsubscribeProperties.allowed := by
  intro q hq
  simp only [Spec.UnsubscribeProperties.toList, List.mem_append, one, users, List.mem_map] at hq
  rcases hq with hq <;>
    (obtain ⟨_, _, rfl⟩ := hq; simp only [Property.id]; decide)

theorem UnsubAckProperties.stepSpec (mode : StrMode) : StepSpec (UnsubAckProperties.step mode) mode
    Spec.UnsubAckProperties.ofList Spec.UnsubAckProperties.allowed := by
  unfold UnsubAckProperties.step Spec.UnsubAckProperties.ofList
  ofList_tac

theorem UnsubAckProperties.read_eq (mode : StrMode) : UnsubAckProperties.read mode =
    gRead mode Spec.UnsubAckProperties.allowed >>= fun o => pure (o.map Spec.UnsubAckProperties.ofList) :=
  readProps_eq (UnsubAckProperties.stepSpec mode) rfl

theorem UnsubAckProperties.ofList_toList (p : UnsubAckProperties) :
    Spec.UnsubAckProperties.ofList (Spec.UnsubAckProperties.toList p) = p := by
  unfold Spec.UnsubAckProperties.ofList Spec.UnsubAckProperties.toList users
  simp only [last_eq, all_append, all_one, all_map, filterMap_const_none, filterMap_some',
    filterMap_some_pair,
    bind_const_none, bind_some', Option.toList_none, List.append_nil, List.nil_append,
    option_toList_getLast, Property.payloadFormatIndicator?, Property.messageExpiryInterval?,
    Property.contentType?, Property.responseTopic?, Property.correlationData?,
    Property.subscriptionIdentifier?, Property.sessionExpiryInterval?,
    Property.assignedClientIdentifier?, Property.serverKeepAlive?,
    Property.authenticationMethod?, Property.authenticationData?,
    Property.requestProblemInformation?, Property.willDelayInterval?,
    Property.requestResponseInformation?, Property.responseInformation?,
    Property.serverReference?, Property.reasonString?, Property.receiveMaximum?,
    Property.topicAliasMaximum?, Property.topicAlias?, Property.maximumQos?,
    Property.retainAvailable?, Property.userProperty?, Property.maximumPacketSize?,
    Property.wildcardSubscriptionAvailable?, Property.subscriptionIdentifierAvailable?,
    Property.sharedSubscriptionAvailable?]

theorem UnsubAckProperties.toList_allowed (p : UnsubAckProperties) :
    ∀ q ∈ Spec.UnsubAckProperties.toList p, q.id ∈ Spec.UnsubAckProperties.allowed := by
  intro q hq
  simp only [Spec.UnsubAckProperties.toList, List.mem_append, one, users, List.mem_map] at hq
  rcases hq with (hq | hq) <;>
    (obtain ⟨_, _, rfl⟩ := hq; simp only [Property.id]; decide)

theorem DisconnectProperties.stepSpec (mode : StrMode) : StepSpec (DisconnectProperties.step mode) mode
    Spec.DisconnectProperties.ofList Spec.DisconnectProperties.allowed := by
  unfold DisconnectProperties.step Spec.DisconnectProperties.ofList
  ofList_tac

theorem DisconnectProperties.read_eq (mode : StrMode) : DisconnectProperties.extract mode =
    gRead mode Spec.DisconnectProperties.allowed >>= fun o => pure (o.map Spec.DisconnectProperties.ofList) :=
  readProps_eq (DisconnectProperties.stepSpec mode) rfl

theorem DisconnectProperties.ofList_toList (p : DisconnectProperties) :
    Spec.DisconnectProperties.ofList (Spec.DisconnectProperties.toList p) = p := by
  unfold Spec.DisconnectProperties.ofList Spec.DisconnectProperties.toList users
  simp only [last_eq, all_append, all_one, all_map, filterMap_const_none, filterMap_some',
    filterMap_some_pair,
    bind_const_none, bind_some', Option.toList_none, List.append_nil, List.nil_append,
    option_toList_getLast, Property.payloadFormatIndicator?, Property.messageExpiryInterval?,
    Property.contentType?, Property.responseTopic?, Property.correlationData?,
    Property.subscriptionIdentifier?, Property.sessionExpiryInterval?,
    Property.assignedClientIdentifier?, Property.serverKeepAlive?,
    Property.authenticationMethod?, Property.authenticationData?,
    Property.requestProblemInformation?, Property.willDelayInterval?,
    Property.requestResponseInformation?, Property.responseInformation?,
    Property.serverReference?, Property.reasonString?, Property.receiveMaximum?,
    Property.topicAliasMaximum?, Property.topicAlias?, Property.maximumQos?,
    Property.retainAvailable?, Property.userProperty?, Property.maximumPacketSize?,
    Property.wildcardSubscriptionAvailable?, Property.subscriptionIdentifierAvailable?,
    Property.sharedSubscriptionAvailable?]

theorem DisconnectProperties.toList_allowed (p : DisconnectProperties) :
    ∀ q ∈ Spec.DisconnectProperties.toList p, q.id ∈ Spec.DisconnectProperties.allowed := by
  intro q hq
  simp only [Spec.DisconnectProperties.toList, List.mem_append, one, users, List.mem_map] at hq
  rcases hq with (((hq | hq)  | hq)  | hq) <;>
    (obtain ⟨_, _, rfl⟩ := hq; simp only [Property.id]; decide)

end Mqtt
