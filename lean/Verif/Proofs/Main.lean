import Verif.Proofs.WritePacket
import Verif.Proofs.RoundTrip
/-
Writing and reading put together.
-/
namespace Mqtt

open Spec

variable {mode : StrMode}

theorem not_overLimit {max : Option Nat} {n : Nat} : ¬ OverLimit max n ↔ Admits max n := by
  constructor
  · intro h m hm
    exact Nat.le_of_not_lt fun hlt => h ⟨m, hm, hlt⟩
  · rintro h ⟨m, hm, hlt⟩
    have := h m hm; omega

theorem frame_inv {f : Bytes} {p : Packet} (h : FrameRep mode f p) :
    ∃ b1 v body, f = b1 :: (v ++ body) ∧ VarintRep v body.length ∧ b1.toNat / 16 = typeNum p ∧
    BodyRep mode b1.toNat body p := h

/-- Two forms of one variable byte integer on the same stream are the same. -/
theorem varintRep_unique {v v' : Bytes} {n n' : Nat} {r r' : Bytes} (h : VarintRep v n)
    (h' : VarintRep v' n') (he : v ++ r = v' ++ r') : v = v' ∧ n = n' ∧ r = r' := by
  have h1 := length_rep h r
  have h2 := length_rep h' r'
  rw [he, h2] at h1
  simp only [Out.ok.injEq, Prod.mk.injEq] at h1
  obtain ⟨hl, hn⟩ := h1
  obtain ⟨hv, hr⟩ := List.append_inj he hl.symm
  exact ⟨hv, hn.symm, hr⟩

theorem encode_body_rep (p : Packet) (h : Encodable p) :
    VarintRep (varint (body p).length) (body p).length := varint_rep h.2.2.1

theorem read_encode {p : Packet} (he : Encodable p) (hs : StringsOk mode p) (hr : Readable p)
    {max : Option Nat} (hm : Admits max (body p).length) (r : Bytes) :
    Packet.read mode max (encode p ++ r) = (.ok (norm p), r) := by
  obtain ⟨b1, v, bd, hf, hv, ht, hb⟩ := encode_frameRep he hs hr
  have hf' : byte1 p :: (varint (body p).length ++ body p) = b1 :: (v ++ bd) := hf
  simp only [List.cons.injEq] at hf'
  obtain ⟨hv', hn, hbd⟩ := varintRep_unique (encode_body_rep p he) hv hf'.2
  refine read_ok_iff.2 ⟨b1, v, bd, by rw [hf]; simp, hv, ?_, ht, hb⟩
  rw [← hbd]; exact not_overLimit.2 hm

theorem round_trip {p : Packet} {buf : Bytes} {n : Nat} (hw : p.write [] = (.ok n, buf))
    (hs : StringsOk mode p) (hsd : Sound p) (hr : Readable p) {max : Option Nat}
    (hm : Admits max (body p).length) (r : Bytes) :
    Packet.read mode max (buf ++ r) = (.ok (norm p), r) := by
  obtain ⟨he, -, rfl⟩ := write_ok_inv hw hsd (fun _ => rfl)
  exact read_encode he hs hr hm r

end Mqtt
