import Verif.Model.Cost
import Verif.Proofs.ReadSub
import Verif.Proofs.ReadRest
/-
The counting decoder computes what the decoder computes, and its count is linear.
-/
set_option linter.unusedSimpArgs false

namespace Mqtt

open MC (lift tick)

/-! ### Forgetting the count -/

/-- The outcome and the buffer. -/
def MC.erase {α : Type} (m : MC α) : M α := fun b => (m b).1

open MC (erase)

theorem erase_bind {α β : Type} (m : MC α) (f : α → MC β) :
    erase (m >>= f) = erase m >>= fun a => erase (f a) := by
  funext b
  show (MC.bind m f b).1 = M.bind (erase m) (fun a => erase (f a)) b
  unfold MC.bind M.bind MC.erase
  rcases m b with ⟨⟨o, b'⟩, n⟩
  cases o <;> rfl

theorem erase_pure {α : Type} (a : α) : erase (pure a : MC α) = pure a := rfl
theorem erase_lift {α : Type} (m : M α) : erase (lift m) = m := rfl
theorem erase_tick : erase tick = pure () := rfl

theorem erase_ite {α : Type} (c : Prop) [Decidable c] (m m' : MC α) :
    erase (if c then m else m') = if c then erase m else erase m' := by split <;> rfl

theorem lengthLoopC_fst (b : Bytes) : ∀ len ll s,
    (lengthLoopC b len ll s).1 = lengthLoop b len ll s := by
  induction b with
  | nil => intro _ _ _; rfl
  | cons x b ih =>
    intro len ll s
    simp only [lengthLoopC, lengthLoop]
    split
    · rfl
    · split
      · rfl
      · exact ih _ _ _

theorem lengthC_fst (b : Bytes) : (lengthC b).1 = length b := lengthLoopC_fst b 0 0 0

theorem erase_lengthMC : erase lengthMC = lengthM := by
  funext b
  show ((lengthC b).1, b) = (length b, b)
  rw [lengthC_fst]

theorem checkC_fst (b : Bytes) (max : Option Nat) : (checkC b max).1 = check b max := by
  have hp : (parse_fixed_headerC b).1 = parse_fixed_header b := by
    unfold parse_fixed_headerC parse_fixed_header
    dsimp only
    split
    · rfl
    · cases b with
      | nil => rfl
      | cons x b =>
        dsimp only
        rw [← lengthC_fst]
        rcases lengthC b with ⟨o, n⟩
        cases o <;> rfl
  unfold checkC check
  dsimp only
  rw [← hp]
  rcases parse_fixed_headerC b with ⟨o, n⟩
  cases o with
  | ok h =>
    cases max with
    | none => dsimp only; split <;> rfl
    | some m =>
      by_cases hm : h.remaining_len > m
      · simp only [if_pos hm]
      · simp only [if_neg hm]; split <;> rfl
  | _ => rfl

section
variable {σ : Type} {stepC : UInt8 → PropertyType → σ → Nat → MC (σ × Nat)}
  {step : UInt8 → PropertyType → σ → Nat → M (σ × Nat)}

theorem erase_propLoopC (h : ∀ p t s c, erase (stepC p t s c) = step p t s c) (plen : Nat) :
    ∀ fuel c s, erase (propLoopC stepC plen fuel c s) = propLoop step plen fuel c s := by
  intro fuel
  induction fuel with
  | zero => intro _ _; rfl
  | succ fuel ih =>
    intro c s
    simp only [propLoopC, propLoop, erase_ite, erase_bind, erase_pure, erase_lift, erase_tick,
      pure_bind, h, ih]

theorem erase_readPropsC (h : ∀ p t s c, erase (stepC p t s c) = step p t s c) (init : σ) :
    erase (readPropsC stepC init) = readProps step init := by
  simp only [readPropsC, readProps, erase_ite, erase_bind, erase_pure, erase_lift, erase_lengthMC,
    erase_propLoopC h]

theorem erase_plain (p : UInt8) (t : PropertyType) (s : σ) (c : Nat) :
    erase (plain step p t s c) = step p t s c := rfl

end

theorem PublishProperties.erase_stepC (mode : StrMode) (p : UInt8) (t : PropertyType)
    (s : PublishProperties) (c : Nat) :
    erase (PublishProperties.stepC mode p t s c) = PublishProperties.step mode p t s c := by
  cases t <;> first
    | rfl
    | simp only [PublishProperties.stepC, PublishProperties.step, erase_bind, erase_pure, erase_lift,
        erase_lengthMC]

theorem SubscribeProperties.erase_stepC (mode : StrMode) (p : UInt8) (t : PropertyType)
    (s : SubscribeProperties) (c : Nat) :
    erase (SubscribeProperties.stepC mode p t s c) = SubscribeProperties.step mode p t s c := by
  cases t <;> first
    | rfl
    | simp only [SubscribeProperties.stepC, SubscribeProperties.step, erase_bind, erase_pure,
        erase_lift, erase_lengthMC]

theorem erase_listLoopC {α : Type} (one : M α) :
    ∀ fuel acc, erase (listLoopC one fuel acc) = gSeq one fuel acc := by
  intro fuel
  induction fuel with
  | zero => intro _; rfl
  | succ fuel ih =>
    intro acc
    simp only [listLoopC, gSeq, erase_ite, erase_bind, erase_pure, erase_lift, erase_tick, pure_bind,
      ih]

/-- The rules for `erase`. -/
macro "erase_simp" "[" t:Lean.Parser.Tactic.simpLemma,* "]" : tactic =>
  `(tactic| simp only [erase_ite, erase_bind, erase_pure, erase_lift, erase_tick,
      erase_readPropsC (erase_plain), erase_listLoopC, $t,*])

theorem LastWill.erase_readC (mode : StrMode) (x : UInt8) :
    erase (LastWill.readC mode x) = LastWill.read mode x := by
  erase_simp [LastWill.readC, LastWill.read, LastWillProperties.read]

theorem Connect.erase_readC (mode : StrMode) (h : FixedHeader) :
    erase (Connect.readC mode h) = Connect.read mode h := by
  erase_simp [Connect.readC, Connect.read, ConnectProperties.read, LastWill.erase_readC]

theorem ConnAck.erase_readC (mode : StrMode) (h : FixedHeader) :
    erase (ConnAck.readC mode h) = ConnAck.read mode h := by
  erase_simp [ConnAck.readC, ConnAck.read, ConnAckProperties.read]

theorem Publish.erase_readC (mode : StrMode) (h : FixedHeader) :
    erase (Publish.readC mode h) = Publish.read mode h := by
  erase_simp [Publish.readC, Publish.read, PublishProperties.read,
    erase_readPropsC (PublishProperties.erase_stepC mode)]
  congr 1; funext q; congr 1; funext _; congr 1; funext _
  cases q <;> rfl

theorem PubAck.erase_readC (mode : StrMode) (h : FixedHeader) :
    erase (PubAck.readC mode h) = PubAck.read mode h := by
  erase_simp [PubAck.readC, PubAck.read, PubAckProperties.read]

theorem PubRec.erase_readC (mode : StrMode) (h : FixedHeader) :
    erase (PubRec.readC mode h) = PubRec.read mode h := by
  erase_simp [PubRec.readC, PubRec.read, PubRecProperties.read]

theorem PubRel.erase_readC (mode : StrMode) (h : FixedHeader) :
    erase (PubRel.readC mode h) = PubRel.read mode h := by
  erase_simp [PubRel.readC, PubRel.read, PubRelProperties.read]

theorem PubComp.erase_readC (mode : StrMode) (h : FixedHeader) :
    erase (PubComp.readC mode h) = PubComp.read mode h := by
  erase_simp [PubComp.readC, PubComp.read, PubCompProperties.read]

theorem Subscribe.erase_readC (mode : StrMode) (h : FixedHeader) :
    erase (Subscribe.readC mode h) = Subscribe.read mode h := by
  have hl : ∀ fuel acc, Filter.readLoop mode fuel acc = gSeq (Filter.readOne mode) fuel acc := by
    intro fuel
    induction fuel with
    | zero => intro acc; rfl
    | succ n ih => intro acc; simp only [Filter.readLoop, gSeq, ih]
  erase_simp [Subscribe.readC, Subscribe.read, SubscribeProperties.read,
    erase_readPropsC (SubscribeProperties.erase_stepC mode), Filter.read, hl, bind_assoc]
  congr 1; funext _; congr 1; funext _; congr 1; funext _; congr 1; funext _; congr 1
  funext l
  cases l <;> rfl

theorem SubAck.erase_readC (mode : StrMode) (h : FixedHeader) :
    erase (SubAck.readC mode h) = SubAck.read mode h := by
  erase_simp [SubAck.readC, SubAck.read, SubAckProperties.read, SubAck.readLoop_eq, SubAck.readOne]

theorem Unsubscribe.erase_readC (mode : StrMode) (h : FixedHeader) :
    erase (Unsubscribe.readC mode h) = Unsubscribe.read mode h := by
  have hl : ∀ fuel acc, Unsubscribe.readLoop mode fuel acc =
      gSeq (read_mqtt_string mode) fuel acc := by
    intro fuel
    induction fuel with
    | zero => intro acc; rfl
    | succ n ih => intro acc; simp only [Unsubscribe.readLoop, gSeq, ih]
  erase_simp [Unsubscribe.readC, Unsubscribe.read, UnsubscribeProperties.read, hl]

theorem UnsubAck.erase_readC (mode : StrMode) (h : FixedHeader) :
    erase (UnsubAck.readC mode h) = UnsubAck.read mode h := by
  erase_simp [UnsubAck.readC, UnsubAck.read, UnsubAckProperties.read, UnsubAck.readLoop_eq,
    UnsubAck.readOne]

theorem Disconnect.erase_readC (mode : StrMode) (h : FixedHeader) :
    erase (Disconnect.readC mode h) = Disconnect.read mode h := by
  erase_simp [Disconnect.readC, Disconnect.read, DisconnectProperties.extract]

theorem erase_onOwnedC {α : Type} {m : MC α} {m' : M α} (h : erase m = m') (b : Bytes) :
    erase (onOwnedC b m) = onOwned b m' := by subst h; rfl

theorem Packet.erase_readC (mode : StrMode) (max : Option Nat) :
    erase (Packet.readC mode max) = Packet.read mode max := by
  have hb : ∀ h t b, erase (Packet.readBodyC mode h t b) = Packet.readBody mode h t b := by
    intro h t b
    cases t <;> simp only [Packet.readBodyC, Packet.readBody, erase_bind, erase_pure,
      erase_onOwnedC (Connect.erase_readC mode h),
      erase_onOwnedC (ConnAck.erase_readC mode h), erase_onOwnedC (Publish.erase_readC mode h),
      erase_onOwnedC (PubAck.erase_readC mode h), erase_onOwnedC (PubRec.erase_readC mode h),
      erase_onOwnedC (PubRel.erase_readC mode h), erase_onOwnedC (PubComp.erase_readC mode h),
      erase_onOwnedC (Subscribe.erase_readC mode h), erase_onOwnedC (SubAck.erase_readC mode h),
      erase_onOwnedC (Unsubscribe.erase_readC mode h), erase_onOwnedC (UnsubAck.erase_readC mode h),
      erase_onOwnedC (Disconnect.erase_readC mode h)]
  have hc : ∀ s : Bytes, erase (checkMC s max) = liftOut (check s max) := by
    intro s; funext b
    show ((checkC s max).1, b) = _
    rw [checkC_fst]; rfl
  simp only [Packet.readC, Packet.read, erase_bind, erase_pure, erase_lift, erase_ite, hb, hc]
  congr 1; funext _; congr 1; funext _; congr 1; funext _; congr 1; funext t; congr 1
  cases t <;> rfl

end Mqtt
