import Verif.Proofs.WriteAck
/-
Writers of SUBSCRIBE, SUBACK, UNSUBSCRIBE and UNSUBACK.
-/
set_option linter.unusedSimpArgs false

namespace Mqtt

open Spec

variable {σ : Type}

/-- The common shape: packet identifier, properties, payload. -/
theorem wr_pkid {p : Packet} {h : UInt8} {pkid : UInt16} {plen : σ → Nat}
    {toList : σ → List Property} {write : σ → M Unit} {o : Option σ} {tailM : M Unit}
    {tail : Bytes} {len : Nat} {T : Prop}
    (hl : ∀ p, plen p = gLen (toList p))
    (hw : ∀ p, write p = write_remaining_length (plen p) >>= fun _ => gWrite (toList p))
    (hprops : props p = optList toList o)
    (hbody : body p = u16 pkid ++ optSection toList o ++ tail) (hb : byte1 p = h)
    (hlen : len = 2 + tail.length + optPropsLen plen o)
    (ht : Wr (Refusal p) tailM T () tail) :
    Wr (Refusal p) (putU8 h >>= fun _ => write_remaining_length len >>= fun count =>
        putU16 pkid >>= fun _ => writeOptProps write o >>= fun _ => tailM >>= fun _ =>
        pure (1 + count + len))
      (((∀ q ∈ props p, q.Fits) ∧ T) ∧ (body p).length ≤ maxVarint)
      (encode p).length (encode p) := by
  have hls : (∀ q ∈ props p, FitsNum q) → LenSpec len (body p) := by
    intro hf
    rw [hprops] at hf
    have h1 := (LenSpec.refl (u16 pkid)).add ((lenSpec_opt hl o hf).add (LenSpec.refl tail))
    exact h1.congr (by rw [hlen, u16_length]; omega) (by rw [hbody, List.append_assoc])
  unfold encode
  rw [hb]
  refine wr_frame (fun hf => hls fun q hq => fitsNum_of_fits (hf.1 q hq))
      (refusal_len fun hf => (hls hf).1) fun hl' => ?_
  have hg : gLen (optList toList o) ≤ 268435455 := by
    have := gLen_le_opt hl o; omega
  refine (Wr.step (emits_u16 _) (Wr.bind (wr_props hl hw o hg ?_)
    (Wr.bind (f := fun _ => pure (1 + (varint len).length + len)) ht
      (Wr.pure (1 + (varint len).length + len))))).congr ?_ ?_ ?_
  · intro q hq e he; exact refusal_prop (hprops ▸ hq) he
  · rw [hprops]; simp
  · intro _; rfl
  · intro _; rw [hbody]; simp

/-! ### SubAck, UnsubAck -/

theorem SubAck.code_eq (r : SubscribeReasonCode) : r.code = Spec.subAckCode r := by
  rcases r with (_ | _ | _) | _ | _ | _ | _ | _ | _ | _ | _ | _ <;> rfl

theorem SubAck.write_wr (p : SubAck) : Wr (Refusal (.SubAck p)) p.write (Encodable (.SubAck p))
    (encode (.SubAck p)).length (encode (.SubAck p)) := by
  have e : p.return_codes.map SubscribeReasonCode.code = p.return_codes.map Spec.subAckCode :=
    List.map_congr_left fun r _ => SubAck.code_eq r
  have key := wr_pkid (p := .SubAck p) (h := 0x90) (pkid := p.pkid) (o := p.properties)
    (tailM := putBytes (p.return_codes.map SubscribeReasonCode.code)) (len := p.len) (T := True)
    (tail := p.return_codes.map Spec.subAckCode)
    SubAckProperties.len_eq SubAckProperties.write_eq rfl rfl rfl
    (by simp [SubAck.len]) (Wr.always (e ▸ Emits.putBytes _))
  exact key.congr (by simp [Encodable, fields, texts]) (fun _ => rfl) (fun _ => rfl)

theorem UnsubAck.code_eq (r : UnsubAckReason) : r.code = Spec.unsubAckCode r := by
  cases r <;> rfl

theorem UnsubAck.write_wr (p : UnsubAck) : Wr (Refusal (.UnsubAck p)) p.write
    (Encodable (.UnsubAck p)) (encode (.UnsubAck p)).length (encode (.UnsubAck p)) := by
  have e : p.reasons.map UnsubAckReason.code = p.reasons.map Spec.unsubAckCode :=
    List.map_congr_left fun r _ => UnsubAck.code_eq r
  have key := wr_pkid (p := .UnsubAck p) (h := 0xB0) (pkid := p.pkid) (o := p.properties)
    (tailM := putBytes (p.reasons.map UnsubAckReason.code)) (len := p.len) (T := True)
    (tail := p.reasons.map Spec.unsubAckCode)
    UnsubAckProperties.len_eq UnsubAckProperties.write_eq rfl rfl rfl
    (by simp [UnsubAck.len]) (Wr.always (e ▸ Emits.putBytes _))
  exact key.congr (by simp [Encodable, fields, texts]) (fun _ => rfl) (fun _ => rfl)

/-! ### Unsubscribe -/

theorem unsub_foldl (l : List Bytes) : ∀ s,
    l.foldl (fun s t => 2 + s + t.length) s = s + (l.flatMap str).length := by
  induction l with
  | nil => intro s; rfl
  | cons x l ih => intro s; rw [List.foldl_cons, ih]; simp; omega

theorem wr_strs {P : Packet} (l : List Bytes) (h : ∀ s ∈ l, s ∈ fields P) :
    Wr (Refusal P) (Unsubscribe.writeFilters l) (∀ s ∈ l, s.length ≤ 65535) ()
      (l.flatMap str) := by
  induction l with
  | nil => exact (Wr.pure ()).congr (by simp) (fun _ => rfl) (fun _ => rfl)
  | cons x l ih =>
    refine (Wr.bind (wr_str (h x List.mem_cons_self))
      (f := fun _ => Unsubscribe.writeFilters l)
      (ih fun s hs => h s (List.mem_cons_of_mem _ hs))).congr ?_ (fun _ => rfl) ?_
    · simp
    · intro _; simp

theorem Unsubscribe.write_wr (p : Unsubscribe) : Wr (Refusal (.Unsubscribe p)) p.write
    (Encodable (.Unsubscribe p)) (encode (.Unsubscribe p)).length (encode (.Unsubscribe p)) := by
  have key := wr_pkid (p := .Unsubscribe p) (h := 0xA2) (pkid := p.pkid) (o := p.properties)
    (tailM := Unsubscribe.writeFilters p.filters) (len := p.len)
    UnsubscribeProperties.len_eq UnsubscribeProperties.write_eq rfl rfl rfl
    (by rw [Unsubscribe.len, unsub_foldl]; omega)
    (wr_strs p.filters fun s hs => by simp [fields, texts, hs])
  exact key.congr (by simp [Encodable, fields, texts]; grind) (fun _ => rfl) (fun _ => rfl)

/-! ### Subscribe -/

theorem sub_foldl (l : List Filter) : ∀ s,
    l.foldl (fun acc t => acc + t.len) s = s + (l.flatMap filterBytes).length := by
  induction l with
  | nil => intro s; rfl
  | cons x l ih => intro s; rw [List.foldl_cons, ih]; simp [Filter.len, filterBytes]; omega

theorem Filter.options_eq (f : Filter) : f.options = UInt8.ofNat (filterOptions f) := by
  obtain ⟨_, q, nl, pr, r⟩ := f
  cases q <;> cases nl <;> cases pr <;> cases r <;>
    simp only [Filter.options, filterOptions, QoS.toU8, qosNum, bit, Bool.false_eq_true,
      if_true, if_false] <;> rfl

theorem wr_filters {P : Packet} (l : List Filter) (h : ∀ f ∈ l, f.path ∈ fields P) :
    Wr (Refusal P) (Filter.writeAll l) (∀ f ∈ l, f.path.length ≤ 65535) ()
      (l.flatMap filterBytes) := by
  induction l with
  | nil => exact (Wr.pure ()).congr (by simp) (fun _ => rfl) (fun _ => rfl)
  | cons x l ih =>
    have h1 : Wr (Refusal P) x.write (x.path.length ≤ 65535) () (filterBytes x) := by
      refine (Wr.bind (wr_str (h x List.mem_cons_self)) (f := fun _ => putU8 x.options)
        (Wr.always (emits_u8 _))).congr (by simp) (fun _ => rfl) ?_
      intro _; rw [Filter.options_eq]; rfl
    refine (Wr.bind h1 (f := fun _ => Filter.writeAll l)
      (ih fun s hs => h s (List.mem_cons_of_mem _ hs))).congr ?_ (fun _ => rfl) ?_
    · simp
    · intro _; simp

theorem Subscribe.write_wr (p : Subscribe) : Wr (Refusal (.Subscribe p)) p.write
    (Encodable (.Subscribe p)) (encode (.Subscribe p)).length (encode (.Subscribe p)) := by
  have key := wr_pkid (p := .Subscribe p) (h := 0x82) (pkid := p.pkid) (o := p.properties)
    (tailM := Filter.writeAll p.filters) (len := p.len)
    SubscribeProperties.len_eq SubscribeProperties.write_eq rfl rfl rfl
    (by rw [Subscribe.len, sub_foldl]; omega)
    (wr_filters p.filters fun f hf => by simp only [fields, texts, List.append_nil]; exact List.mem_map_of_mem hf)
  exact key.congr (by simp [Encodable, fields, texts]; grind) (fun _ => rfl) (fun _ => rfl)

end Mqtt
