import Verif.Props.C09

/-! # C52: signature malleability is excluded by verification -/

namespace Secp
open Model Spec

/-- If `(r, s)` is accepted then `(r, n - s)` is not, for the same key and message. -/
theorem C52_not_malleable {Q : Pt} (hQ : Q ≠ 0) (r s : Fn) {msg : Bytes} (hl : msg.length = 32)
    (h : ecdsaVerify (some (sigObject r s)) (some msg) (some (keyObject Q)) = ⟨1, 0, ()⟩) :
    (-s).val = n - s.val ∧
    ecdsaVerify (some (sigObject r (-s))) (some msg) (some (keyObject Q)) = ⟨0, 0, ()⟩ := by
  obtain ⟨⟨-, hs, -⟩, hlow⟩ := (C09_verify_accepts hQ r s hl).1 h
  have : NeZero s := ⟨hs⟩
  have hv := ZMod.val_neg_of_ne_zero s
  refine ⟨hv, ?_⟩
  rw [C09_verify_rejects hQ r (-s) hl]
  rintro ⟨-, hlow'⟩
  have h0 : s.val ≠ 0 := fun e => hs ((ZMod.val_eq_zero s).1 e)
  have := ZMod.val_lt s
  have := n_odd
  omega

/-- The normalized form of every valid signature is accepted. -/
theorem C52_normalized_accepted {Q : Pt} (hQ : Q ≠ 0) (r s : Fn) {msg : Bytes}
    (hl : msg.length = 32) (hv : EcdsaValid Q (msgScalar msg) r s) (old : Bytes) {obj : Bytes}
    (h : (ecdsaSignatureNormalize (some old) (some (sigObject r s))).val = some obj) :
    ecdsaVerify (some obj) (some msg) (some (keyObject Q)) = ⟨1, 0, ()⟩ := by
  have e : obj = sigObject r (lowS s) := by
    simp only [ecdsaSignatureNormalize, signatureLoad_obj, signatureSave_eq] at h
    rw [lowS_eq]
    exact (Option.some.inj h).symm
  rw [e, C09_verify_accepts hQ _ _ hl, ecdsaValid_lowS, ← low_iff, lowS_low]
  exact ⟨hv, rfl⟩

/-- Of the four signatures `(±r, ±s)`... only `r` itself and the low `s` are accepted: for a fixed key,
message and `r`, acceptance of `s` and `s'` with the same point up to sign forces `s = s'`. -/
theorem C52_unique_sign {Q : Pt} (hQ : Q ≠ 0) (r s s' : Fn) {msg : Bytes} (hl : msg.length = 32)
    (h : ecdsaVerify (some (sigObject r s)) (some msg) (some (keyObject Q)) = ⟨1, 0, ()⟩)
    (h' : ecdsaVerify (some (sigObject r s')) (some msg) (some (keyObject Q)) = ⟨1, 0, ()⟩)
    (hs : s' = s ∨ s' = -s) : s' = s := by
  rcases hs with rfl | rfl
  · rfl
  · have := (C52_not_malleable hQ r s hl h).2
    rw [this] at h'
    simp at h'

/-- A signature that is accepted exists. -/
example : ∃ (Q : Pt) (r s : Fn) (msg : Bytes), Q ≠ 0 ∧ msg.length = 32 ∧
    ecdsaVerify (some (sigObject r s)) (some msg) (some (keyObject Q)) = ⟨1, 0, ()⟩ := by
  have h1 := ecdsaR_one_ne_zero
  have hz : msgScalar (List.replicate 32 0) = 0 := by decide +kernel
  have hs : ecdsaS 1 (msgScalar (List.replicate 32 0)) 1 ≠ 0 := by
    rw [ecdsaS, hz]; simpa using h1
  refine ⟨(1 : Fn) • G, ecdsaR 1, lowS (ecdsaS 1 (msgScalar (List.replicate 32 0)) 1),
    List.replicate 32 0, smul_G_ne one_ne_zero, by simp, ?_⟩
  rw [C09_verify_accepts (smul_G_ne one_ne_zero) _ _ (by simp), ← low_iff, lowS_low]
  exact ⟨ecdsaValid_sign one_ne_zero h1 hs, rfl⟩

end Secp
