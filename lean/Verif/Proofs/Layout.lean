import Verif.Spec.Layout
import Verif.Proofs.WritePacket
/-
The writers emit the pieces of the layout in order.
-/
namespace Mqtt

open Spec

/-- `m` writes the pieces `L`, and returns `a` if that succeeds. -/
def Plays {α : Type} (m : M α) (a : α) (L : List Piece) : Prop :=
  Emits m (wrapped (fun _ => a) (emit L).1) (emit L).2

theorem emit_append (L L' : List Piece) : emit (L ++ L') =
    (match (emit L).1 with
      | .ok _ => ((emit L').1, (emit L).2 ++ (emit L').2)
      | .err e => (.err e, (emit L).2)
      | .panic => (.panic, (emit L).2)
      | .diverge => (.diverge, (emit L).2)) := by
  induction L with
  | nil => rfl
  | cons p L ih =>
    simp only [List.cons_append, emit]
    cases p.written with
    | ok w =>
      simp only [ih]
      cases (emit L).1 <;> simp
    | _ => rfl

namespace Plays

variable {α β : Type}

theorem pure (a : α) : Plays (Pure.pure a : M α) a [] := Emits.pure a

theorem bind {m : M α} {f : α → M β} {a : α} {c : β} {L L' : List Piece}
    (h1 : Plays m a L) (h2 : Plays (f a) c L') : Plays (m >>= f) c (L ++ L') := by
  intro b
  have e1 := h1 b
  unfold Plays at h2
  rw [emit_append]
  cases h : (emit L).1 with
  | ok u =>
    rw [h] at e1
    rw [M.bind_ok e1, h2]
    simp
  | err e => rw [h] at e1; rw [M.bind_err e1]; rfl
  | panic => rw [h] at e1; simp only [M.bind_apply, e1]; rfl
  | diverge => rw [h] at e1; simp only [M.bind_apply, e1]; rfl

/-- One piece first. -/
theorem cons {m : M α} {f : α → M β} {a : α} {c : β} {p : Piece} {L : List Piece}
    (h1 : Plays m a [p]) (h2 : Plays (f a) c L) : Plays (m >>= f) c (p :: L) := bind h1 h2

theorem congr {m : M α} {a : α} {L L' : List Piece} (h : Plays m a L) (hL : L = L') :
    Plays m a L' := hL ▸ h

/-- The last step. -/
theorem done {m : M α} {a : α} {c : β} {L : List Piece} (h : Plays m a L) :
    Plays (m >>= fun _ => (Pure.pure c : M β)) c L :=
  (bind h (Plays.pure c)).congr (List.append_nil L)

end Plays

theorem plays_raw {m : M Unit} {w : Bytes} (h : Emits m (.ok ()) w) : Plays m () [.raw w] := by
  intro b; rw [h b]; simp [emit, Piece.written, wrapped]

theorem plays_u8 (x : UInt8) : Plays (putU8 x) () [.raw [x]] := plays_raw (emits_u8 x)

theorem plays_u16 (x : UInt16) : Plays (putU16 x) () [.raw (u16 x)] := plays_raw (emits_u16 x)

theorem plays_text (s : Bytes) : Plays (write_mqtt_string s) () [.text s] := by
  intro b
  by_cases h : s.length ≤ 65535
  · rw [emits_string h b]; simp [emit, Piece.written, wrapped, h]
  · have := emits_bytes_err (s := s) (by omega) b
    refine this.trans ?_
    simp [emit, Piece.written, wrapped, h]

theorem plays_num (n : Nat) : Plays (write_remaining_length n) (varint n).length [.num n] := by
  intro b
  by_cases h : n ≤ maxVarint
  · rw [write_remaining_length_emits h b]; simp [emit, Piece.written, wrapped, h]
  · unfold maxVarint at h
    rw [write_remaining_length_err (by omega) b]
    simp [emit, Piece.written, wrapped, maxVarint, h]

theorem size_num (n : Nat) : len_len n = (Piece.num n).size := by
  show len_len n = min 4 (varint n).length
  by_cases h : n ≤ 268435455
  · rw [len_len_eq h]
    have := varint_length_le (n := n) (k := 3) (by omega)
    omega
  · have := varint_length_ge (n := n) (k := 3) (by omega)
    have : len_len n = 4 := by unfold len_len; rw [if_pos (by omega)]
    omega

@[simp] theorem sizes_nil : sizes [] = 0 := rfl
@[simp] theorem sizes_cons (p : Piece) (l : List Piece) : sizes (p :: l) = p.size + sizes l := rfl
@[simp] theorem sizes_append (l l' : List Piece) : sizes (l ++ l') = sizes l + sizes l' := by
  simp [sizes]

theorem plays_val (q : Property) : Plays (writeVal q) () q.valuePieces := by
  cases q <;> simp only [writeVal, Property.valuePieces, Property.value] <;>
    first
    | exact plays_text _
    | exact plays_u8 _
    | exact plays_u16 _
    | exact plays_raw (emits_u32 _)
    | exact Plays.done (plays_num _)
    | exact Plays.cons (plays_text _) (plays_text _)

theorem plays_props (ps : List Property) : Plays (gWrite ps) () (ps.flatMap Property.pieces) := by
  induction ps with
  | nil => exact Plays.pure ()
  | cons q ps ih =>
    rw [List.flatMap_cons]
    exact Plays.cons (plays_u8 _) (Plays.bind (plays_val q) ih)

theorem gCost_size (q : Property) : gCost q = sizes q.pieces := by
  cases q <;> simp [gCost, Property.pieces, Property.valuePieces, Piece.size, Property.enc,
    Property.value, u16, u32, str, size_num] <;> omega

theorem gLen_size (ps : List Property) : gLen ps = sizes (ps.flatMap Property.pieces) := by
  induction ps with
  | nil => rfl
  | cons q ps ih => rw [List.flatMap_cons, sizes_append, gLen, ih, gCost_size]

variable {σ : Type}

theorem plays_record {write : σ → M Unit} {plen : σ → Nat} {toList : σ → List Property}
    (hl : ∀ p, plen p = gLen (toList p))
    (hw : ∀ p, write p = write_remaining_length (plen p) >>= fun _ => gWrite (toList p)) (p : σ) :
    Plays (write p) () (sectionPieces (toList p)) := by
  rw [hw, hl, gLen_size]
  exact Plays.cons (plays_num _) (plays_props _)

theorem plays_opt {write : σ → M Unit} {plen : σ → Nat} {toList : σ → List Property}
    (hl : ∀ p, plen p = gLen (toList p))
    (hw : ∀ p, write p = write_remaining_length (plen p) >>= fun _ => gWrite (toList p))
    (o : Option σ) : Plays (writeOptProps write o) () (sectionPieces (optList toList o)) := by
  cases o with
  | none => exact Plays.done (plays_num 0)
  | some p => exact plays_record hl hw p

theorem size_section (ps : List Property) :
    sizes (sectionPieces ps) = len_len (gLen ps) + gLen ps := by
  simp [sectionPieces, ← gLen_size, ← size_num]

theorem size_opt {plen : σ → Nat} {toList : σ → List Property}
    (hl : ∀ p, plen p = gLen (toList p)) (o : Option σ) :
    optPropsLen plen o = sizes (sectionPieces (optList toList o)) := by
  rw [size_section]
  cases o with
  | none => rfl
  | some p => simp [optPropsLen, optList, hl]

/-- The number a writer returns. -/
abbrev returned (p : Packet) : Nat := 1 + (varint (announced p)).length + announced p

/-- A whole packet. -/
theorem plays_frame {p : Packet} {h : UInt8} {len : Nat} {k : Nat → M Nat} (hh : h = byte1 p)
    (hl : len = announced p)
    (hk : Plays (k (varint len).length) (1 + (varint len).length + len) (bodyPieces p)) :
    Plays (putU8 h >>= fun _ => write_remaining_length len >>= k) (returned p) (layout p) := by
  subst hh hl
  exact Plays.cons (plays_u8 _) (Plays.cons (plays_num _) hk)

end Mqtt
