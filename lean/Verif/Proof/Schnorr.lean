import Verif.Model.Schnorr
import Verif.Proof.Extrakeys
import Verif.Proof.HashEval
import Verif.Proof.GroupEq

/-! # BIP-340 -/

namespace Secp
open WeierstrassCurve Model Spec

/-- A hash object that starts from the precomputed state behaves as if it had absorbed the two copies
of the hashed tag. -/
theorem midstate_absorbed {tag : Bytes} {s : List UInt32} (h : Hash.Sha) (hb : h.buf.length = 64)
    (hs : Hash.toList (Hash.fastCompress Hash.h0 (Hash.fastSha tag ++ Hash.fastSha tag)) = s) :
    Hash.Absorbed (shaMidstate h s) (Spec.sha256 tag ++ Spec.sha256 tag) := by
  have hl : (Spec.sha256 tag ++ Spec.sha256 tag).length = 64 := by
    rw [List.length_append, Hash.sha_length]
  have hbl : Spec.blocks (Spec.sha256 tag ++ Spec.sha256 tag) = [Spec.sha256 tag ++ Spec.sha256 tag] := by
    rw [Spec.blocks, hl]
    simp only [show 64 / 64 = 1 from rfl, List.range_one, List.map_cons, List.map_nil, Nat.mul_zero,
      List.drop_zero]
    rw [List.take_of_length_le (by rw [hl])]
  refine ⟨⟨?_, hb, ?_⟩, ?_⟩
  · rw [hbl, List.foldl_cons, List.foldl_nil, Hash.fastCompress_eq, Hash.shaH0_eq, Hash.fastSha_eq, hs]
    rfl
  · rw [hl]
    simp [Hash.rest, hl]
  · rw [hl]; rfl

theorem midHash {tag : Bytes} {s : List UInt32} 
    (hs : Hash.toList (Hash.fastCompress Hash.h0 (Hash.fastSha tag ++ Hash.fastSha tag)) = s) (m : Bytes) :
    (Hash.finalize (Hash.write (shaMidstate Hash.uninit s) m)).1 = taggedHash tag m :=
  (Hash.finalize_spec (Hash.write_absorbed (midstate_absorbed _ Hash.uninit_buf hs) m)).1

theorem midHash3 {tag : Bytes} {s : List UInt32}
    (hs : Hash.toList (Hash.fastCompress Hash.h0 (Hash.fastSha tag ++ Hash.fastSha tag)) = s)
    (a b c : Bytes) :
    (Hash.finalize (Hash.write (Hash.write (Hash.write (shaMidstate Hash.uninit s) a) b) c)).1 =
      taggedHash tag (a ++ b ++ c) := by
  have := (Hash.finalize_spec (Hash.write_absorbed (Hash.write_absorbed (Hash.write_absorbed
    (midstate_absorbed _ Hash.uninit_buf hs) a) b) c)).1
  rw [this, taggedHash, List.append_assoc, List.append_assoc, List.append_assoc a b c]

theorem challengeMid_ok :
    Hash.toList (Hash.fastCompress Hash.h0 (Hash.fastSha challengeTag ++ Hash.fastSha challengeTag)) =
      schnorrMid := by decide +kernel

theorem auxMid_ok :
    Hash.toList (Hash.fastCompress Hash.h0 (Hash.fastSha auxTag ++ Hash.fastSha auxTag)) =
      bip340AuxMid := by decide +kernel

theorem nonceMid_ok :
    Hash.toList (Hash.fastCompress Hash.h0 (Hash.fastSha nonceTag ++ Hash.fastSha nonceTag)) =
      bip340NonceMid := by decide +kernel

theorem zeroMask_ok : taggedHash auxTag (List.replicate 32 0) = bip340ZeroMask := by
  rw [taggedHash, Hash.fastSha_eq, Hash.fastSha_eq]
  decide +kernel

theorem challenge_eq {r32 : Bytes} (hr : 32 ≤ r32.length) (P : Pt) (m : Bytes) :
    schnorrsigChallenge r32 m (xonly P) = ((schnorrChallenge (r32.take 32) P m : ℕ) : Fn) := by
  unfold schnorrsigChallenge
  simp only
  rw [midHash3 challengeMid_ok, schnorrChallenge, take32 (xonly_length P), ZMod.natCast_mod]
  simp only [scSetB32]
  rw [take32 (by rw [taggedHash, Hash.sha_length])]

theorem verifyPoint_iff {a : Ge Fp} {P : Pt} (h : GeRep 7 a P) (rx : Fp) (s e : Fn) :
    schnorrsigVerifyPoint rx s e a = true ↔
      s • G - e • P ≠ 0 ∧ ptY (s • G - e • P) % 2 = 0 ∧ ptX (s • G - e • P) = rx.val := by
  have hr := geSetGejVar_rep (ecmult_rep (gejSetGe_rep h) (-e) (some s))
  rw [Option.getD_some, neg_smul, neg_add_eq_sub] at hr
  unfold schnorrsigVerifyPoint
  simp only
  by_cases h0 : s • G - e • P = 0
  · have hi : (geSetGejVar (ecmult (gejSetGe a) (-e) (some s))).infinity = true := by
      rw [h0] at hr; exact hr.inf_iff.2 rfl
    rw [hi]; simp [h0]
  · rw [geRep_inf hr h0, if_neg (by simp), Bool.and_eq_true, Bool.not_eq_true', equal_iff,
      Bool.eq_false_iff, Ne, feIsOdd_iff]
    have hy := geRep_y hr h0
    have hx := geRep_x hr h0
    rw [show (FeOps.normalize (geSetGejVar (ecmult (gejSetGe a) (-e) (some s))).y : Fp) =
      (geSetGejVar (ecmult (gejSetGe a) (-e) (some s))).y from rfl, hy, ← hx]
    constructor
    · rintro ⟨a, b⟩; exact ⟨h0, by omega, by rw [b]⟩
    · rintro ⟨-, a, b⟩; exact ⟨by omega, (ZMod.val_injective p b).symm⟩

end Secp
