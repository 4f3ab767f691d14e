import Verif.Spec.Mqtt5
import Verif.Proofs.Exact
import Verif.Proofs.Typed
/-
Frames that conform to MQTT 5 are in the accepted language.
-/
namespace Mqtt

open Spec

variable {mode : StrMode}

theorem Text5.field {s : Bytes} (h : Text5 s) : TextField mode s := ⟨h.1, fun _ => h.2.1⟩

theorem Target5.text {s : Bytes} {ps : List Property} (h : Target5 s ps) : Text5 s := by
  rcases h with h | ⟨rfl, -⟩
  · exact h.1
  · exact ⟨by simp, ⟨[], rfl⟩, by simp⟩

theorem Value5.fits {p : Property} (h : p.Value5) : p.Fits := by
  cases p <;> first
    | trivial | exact h | exact h.1 | exact h.2 | exact h.1.1 | exact ⟨h.1.1, h.2.1⟩

theorem Value5.texts {p : Property} (h : p.Value5) : p.TextsOk mode := by
  intro s hs _
  cases p <;> simp only [Property.texts, List.mem_cons, List.not_mem_nil, or_false] at hs <;>
    first
    | (subst hs; exact h.2.1)
    | (subst hs; exact h.1.2.1)
    | (rcases hs with rfl | rfl
       · exact h.1.2.1
       · exact h.2.2.1)

theorem _root_.Spec.Section5.rep {ids many : List UInt8} {ps : List Property} {s : Bytes}
    (h : Section5 ids many ps s) : SectionRep ps s :=
  ⟨_, _, h.bytes, varint_rep h.length, seqRep_enc fun p hp => Value5.fits (h.values p hp)⟩

theorem _root_.Spec.Section5.ok {ids many : List UInt8} {ps : List Property} {s : Bytes}
    (h : Section5 ids many ps s) : ∀ p ∈ ps, p.Ok mode ids :=
  fun p hp => ⟨h.ids p hp, Value5.texts (h.values p hp)⟩

theorem _root_.Spec.Section5.sec {ids many : List UInt8} {ps : List Property} {s : Bytes}
    (h : Section5 ids many ps s) (hi : (0x0B : UInt8) ∉ ids) :
    PropSec mode ids (if ps = [] then none else some ps) s :=
  propSec_of_section' hi h.rep h.ok

theorem subIds_filter (ps : List Property) : subIds ps = (ps.filter (·.id = 0x0B)).length := by
  induction ps with
  | nil => rfl
  | cons p ps ih =>
    rw [subIds_cons, ih, List.filter_cons]
    cases p <;> simp [Property.drift, Property.id] <;> omega

theorem _root_.Spec.Section5.subscribe {ps : List Property} {s : Bytes}
    (h : Section5 Spec.SubscribeProperties.allowed [0x26] ps s) : DriftSafe ps :=
  driftSafe_of_le_one (fun p hp => Value5.fits (h.values p hp)) (by
    rw [subIds_filter]; exact h.once _ (by decide))

/-- If the payload of a PUBLISH is found behind its property section, the miscount did no harm. -/
theorem _root_.Spec.Section5.driftSafe {ids ids' many : List UInt8} {ps : List Property} {s : Bytes}
    (h : Section5 ids many ps s) {ps' : Option (List Property)} (hs : PropSec mode ids' ps' s) :
    DriftSafe ps := by
  have hf : ∀ p ∈ ps, p.Fits := fun p hp => Value5.fits (h.values p hp)
  by_cases hl : ps = []
  · subst hl; intro pre p post he; simp at he
  have hb := h.bytes
  have hlen := h.length
  unfold propSection at hb
  cases hs with
  | @absent v hv =>
    have h2 : varint (encProps ps).length ++ encProps ps = s ++ [] := by rw [← hb]; simp
    obtain ⟨-, -, h4⟩ := varintRep_unique (varint_rep hlen) hv h2
    cases ps with
    | nil => exact absurd rfl hl
    | cons x xs =>
      have := enc_pos (hf x (by simp))
      rw [encProps_cons] at h4
      have := congrArg List.length h4
      simp only [List.length_append, List.length_nil] at this; omega
  | @present v plen ps' ws c hv h0 hrun hc hok =>
    obtain ⟨-, rfl, rfl⟩ := varintRep_unique (varint_rep hlen) hv hb.symm
    have := run_unique hrun rfl hf
    rw [this] at hrun
    exact driftSafe_of_run hrun hf

theorem login_rep {flags : UInt8} {user pass : Bytes} (h : Login5 flags user pass)
    (hp : ∀ l, connectLogin flags user pass = some l → TextOk mode l.password) :
    LoginRep mode flags.toNat (connectLogin flags user pass)
      ((if bitAt flags 7 then str user else []) ++ (if bitAt flags 6 then str pass else [])) := by
  have e7 : bitAt flags 7 = true ↔ flags.toNat / 128 % 2 = 1 := by simp [bitAt]
  have e6 : bitAt flags 6 = true ↔ flags.toNat / 64 % 2 = 1 := by simp [bitAt]
  refine ⟨if bitAt flags 7 then user else [], if bitAt flags 6 then pass else [], _, _, ?_, ?_,
    rfl, rfl⟩
  · by_cases h7 : bitAt flags 7 = true
    · rw [if_pos h7, if_pos h7]; exact .inl ⟨e7.1 h7, Text5.field (h.1 h7), rfl⟩
    · rw [if_neg h7, if_neg h7]
      exact .inr ⟨by have := mt e7.2 h7; omega, rfl, rfl⟩
  · by_cases h6 : bitAt flags 6 = true
    · rw [if_pos h6, if_pos h6]
      refine .inl ⟨e6.1 h6, ⟨h.2 h6, ?_⟩, rfl⟩
      by_cases h0 : pass = []
      · subst h0; exact fun _ => ⟨[], rfl⟩
      · refine hp { username := if bitAt flags 7 then user else [], password := pass } ?_
        unfold connectLogin
        rw [if_pos h6]
        simp [h0]
    · rw [if_neg h6, if_neg h6]
      exact .inr ⟨by have := mt e6.2 h6; omega, rfl, rfl⟩

theorem filters_seq {items : List (Bytes × UInt8)} {fs : List Filter} (h : FiltersAre items fs)
    (hi : ∀ i ∈ items, TextField mode i.1) :
    SeqRep (FilterRep mode) fs (filterItems items) := by
  induction h with
  | nil => exact .nil
  | @cons path o f items fs hp ho _ ih =>
    refine .cons (w := str path ++ [o]) ⟨?_, o, ?_, by rw [hp]⟩
      (ih fun i hi' => hi i (by simp [hi']))
    · rw [hp]; exact hi (path, o) (by simp)
    · clear ih hi
      obtain ⟨path, q, nl, pr, rr⟩ := f
      unfold OptionsAre bitAt at ho
      cases q <;> cases nl <;> cases pr <;> cases rr <;>
        simp [filterOptions, qosNum, bit] at ho ⊢ <;> omega

theorem topics_seq {fs : List Bytes} (h : ∀ f ∈ fs, Text5 f) :
    SeqRep (fun f w => TextField mode f ∧ w = str f) fs (fs.flatMap str) := by
  induction fs with
  | nil => exact .nil
  | cons f fs ih =>
    exact .cons ⟨Text5.field (h f (by simp)), rfl⟩ (ih fun g hg => h g (by simp [hg]))

theorem body5_flags {flags : Nat} {bd : Bytes} {p : Packet} {ps : List Property}
    (h : Body5 flags bd p ps) : flags < 16 ∧ typeNum p < 15 := by
  cases h <;> refine ⟨?_, by simp [typeNum]⟩ <;> first | assumption | omega

/-- A conforming body is in the accepted language, with the three exceptions. -/
theorem body5_rep {flags : Nat} {bd : Bytes} {p : Packet} {ps : List Property}
    (h : Body5 flags bd p ps)
    (hd : ∀ d, p = .Disconnect d → bd.length ≠ 1) (hp : ∀ q, p = .Publish q → DriftSafe ps)
    (hc : ∀ c w l, p = .Connect c w (some l) → TextOk mode l.password) :
    BodyRep mode (16 * typeNum p + flags) bd p := by
  cases h with
  | @connect flags ka ps s cid user pass h0 h1 h2 _ h3 h4 =>
    have hp : ∀ l, connectLogin flags user pass = some l → TextOk mode l.password := by
      intro l hl; exact hc _ _ l (by rw [hl])
    have e2 : bitAt flags 2 = false := by simp [bitAt]; omega
    refine ⟨flags, _, s, [], _, [], ?_, ?_, h2.sec (by decide), propsOf_map.symm, Text5.field h3,
      ⟨h1, rfl⟩, login_rep h4 hp⟩
    · simp [connectBody, e2, str, u16]
    · rw [bit_eq_iff (by omega)]; rfl
  | @connectWill flags ka ps wps q s cid ws topic message user pass h0 h1 hq h2 _ h3 h5 h6 h7 h4 =>
    have hp : ∀ l, connectLogin flags user pass = some l → TextOk mode l.password := by
      intro l hl; exact hc _ _ l (by rw [hl])
    have e2 : bitAt flags 2 = true := by simp [bitAt]; omega
    refine ⟨flags, _, s, ws ++ str topic ++ str message, _, [], ?_, ?_, h2.sec (by decide),
      propsOf_map.symm, Text5.field h3, ⟨h1, hq, ?_, h6.1.1, h7, _, ws, h5.sec (by decide),
      propsOf_map.symm, rfl⟩, login_rep h4 hp⟩
    · simp [connectBody, e2, str, u16]
    · rw [bit_eq_iff (by omega)]; rfl
    · rw [bit_eq_iff (by omega)]; rfl
  | @connAck present code rc ps s h1 _ h2 =>
    refine ⟨if present then 1 else 0, code, _, s, [], by simp, ?_, h1, h2.sec (by decide),
      propsOf_map.symm⟩
    cases present <;> rfl
  | @publish0 flags topic s payload ps h1 h3 h4 =>
    have hd : DriftSafe ps := hp _ rfl
    have hf : flags = 0 ∨ flags = 1 := by omega
    refine ⟨?_, ?_, ?_, by simp, Text5.field (Target5.text h3), _, s, by simp,
      propSec_of_section h4.rep h4.ok hd, propsOf_map.symm⟩
    · rcases hf with rfl | rfl <;> simp [bit, typeNum]
    · simp only [typeNum, qosNum]; omega
    · rcases hf with rfl | rfl <;> simp [bit, typeNum]
  | @publish flags q pkid topic s payload ps h1 h2 hq h0 h3 h4 =>
    have hd : DriftSafe ps := hp _ rfl
    refine ⟨?_, ?_, ?_, by simp [h0, hq], Text5.field (Target5.text h3), _, s, by simp [hq],
      propSec_of_section h4.rep h4.ok hd, propsOf_map.symm⟩
    · rw [bit_eq_iff (by omega)]; simp only [typeNum]; congr 1; simp; omega
    · simp only [typeNum]; omega
    · rw [bit_eq_iff (by omega)]; simp only [typeNum]; congr 1; simp; omega
  | pubAck2 | pubRec2 | pubRel2 | pubComp2 => exact ⟨[], by simp, .inl ⟨rfl, rfl, rfl⟩⟩
  | pubAck3 | pubRec3 | pubRel3 | pubComp3 => exact ⟨_, rfl, .inr (.inl ⟨rfl, rfl⟩)⟩
  | pubAck h0 h1 | pubRec h0 h1 | pubRel h0 h1 | pubComp h0 h1 =>
    exact ⟨_, List.append_assoc _ _ _, .inr (.inr ⟨_, _, [], (List.append_nil _).symm,
      h1.sec (by decide), propsOf_map.symm⟩)⟩
  | @subscribe pkid items fs ps s h0 h1 h2 h3 h4 _ =>
    refine ⟨?_, _, s, filterItems items, rfl, propSec_of_section h1.rep h1.ok h1.subscribe,
      propsOf_map.symm, filters_seq h3 fun i hi => Text5.field (h4 i hi).1.1⟩
    cases h3 with
    | nil => exact absurd rfl h2
    | cons => simp
  | subAck h0 h1 h2 => exact ⟨h2, _, _, rfl, h1.sec (by decide), propsOf_map.symm⟩
  | unsubscribe h0 h1 h2 h3 =>
    exact ⟨_, _, _, rfl, h1.sec (by decide), propsOf_map.symm, topics_seq fun f hf => (h3 f hf).1⟩
  | unsubAck h0 h1 h2 => exact ⟨h2, _, _, rfl, h1.sec (by decide), propsOf_map.symm⟩
  | pingReq => trivial
  | pingResp => trivial
  | disconnect0 => exact ⟨rfl, .inl ⟨rfl, rfl, rfl⟩⟩
  | disconnect1 => exact absurd rfl (hd _ rfl)
  | disconnect h1 =>
    exact ⟨by simp [typeNum], .inr ⟨_, _, [], (List.append_nil _).symm, h1.sec (by decide), propsOf_map.symm⟩⟩

end Mqtt
