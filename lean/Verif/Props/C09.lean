import Verif.Proof.EcdsaSign

/-! # C09: ECDSA verification decides exactly the ECDSA equation with low s

`EcdsaValid` (`Verif/Spec/Ecdsa.lean`) is the verification of SEC 1, 4.1.4.  A valid public key object
is `keyObject Q` with `Q ≠ 0`; `sigObject r s` ranges over all signature objects with `r, s < n`. -/

namespace Secp
open Model Spec

theorem verify_eq {Q : Pt} (hQ : Q ≠ 0) (r s : Fn) (msg : Bytes) :
    ecdsaVerify (some (sigObject r s)) (some msg) (some (keyObject Q)) =
      ⟨cInt (!scIsHigh s && ecdsaSigVerify r s (pubkeyLoad (keyObject Q)).1 (scSetB32 msg).1), 0, ()⟩ := by
  obtain ⟨h1, h2, -⟩ := pubkeyLoad_obj hQ
  simp only [ecdsaVerify, signatureLoad_obj]
  cases hs : scIsHigh s
  · simp only [Bool.false_eq_true, if_false, if_pos h1, Bool.not_false, Bool.true_and]
  · simp [cInt]

theorem low_iff (s : Fn) : (!scIsHigh s) = true ↔ s.val ≤ (n - 1) / 2 := by
  rw [Bool.not_eq_true', Bool.eq_false_iff, Ne, scIsHigh_iff]
  have := n_odd
  omega

/-- `secp256k1_ecdsa_verify` returns 1 iff the signature is valid and `s ≤ (n-1)/2`. -/
theorem C09_verify_accepts {Q : Pt} (hQ : Q ≠ 0) (r s : Fn) {msg : Bytes} (hl : msg.length = 32) :
    ecdsaVerify (some (sigObject r s)) (some msg) (some (keyObject Q)) = ⟨1, 0, ()⟩ ↔
      EcdsaValid Q (msgScalar msg) r s ∧ s.val ≤ (n - 1) / 2 := by
  rw [verify_eq hQ, ← low_iff, ← ecdsaSigVerify_iff (pubkeyLoad_obj hQ).2.1, scSetB32_msg, take32 hl,
    and_comm, ← Bool.and_eq_true]
  cases (!scIsHigh s && ecdsaSigVerify r s (pubkeyLoad (keyObject Q)).1 (msgScalar msg)) <;>
    simp [cInt]

/-- Otherwise it returns 0; the illegal callback is never called for a valid key. -/
theorem C09_verify_rejects {Q : Pt} (hQ : Q ≠ 0) (r s : Fn) {msg : Bytes} (hl : msg.length = 32) :
    ecdsaVerify (some (sigObject r s)) (some msg) (some (keyObject Q)) = ⟨0, 0, ()⟩ ↔
      ¬ (EcdsaValid Q (msgScalar msg) r s ∧ s.val ≤ (n - 1) / 2) := by
  rw [← C09_verify_accepts hQ r s hl, verify_eq hQ]
  cases (!scIsHigh s && ecdsaSigVerify r s (pubkeyLoad (keyObject Q)).1 (scSetB32 msg).1) <;>
    simp [cInt]

/-- A key object that failed to parse (all zero) is never accepted. -/
theorem C09_zero_key (r s : Fn) (msg : Bytes) :
    (ecdsaVerify (some (sigObject r s)) (some msg) (some (List.replicate 64 0))).ret = 0 := by
  have h : (pubkeyLoad (List.replicate 64 0)).2 = false := by decide +kernel
  simp only [ecdsaVerify, signatureLoad_obj]
  split
  · rfl
  · rw [if_neg (by rw [h]; simp)]

theorem ecdsaR_one_ne_zero : ecdsaR 1 ≠ 0 := by
  unfold ecdsaR
  have : ((1 : Fn)).val = 1 := by decide +kernel
  rw [this, one_nsmul, G, ptX_some]
  decide +kernel

/-- A signature of the message 0 with the secret key 1 and the nonce 1: valid and low. -/
example : ∃ (Q : Pt) (r s : Fn) (msg : Bytes), Q ≠ 0 ∧ msg.length = 32 ∧
    EcdsaValid Q (msgScalar msg) r s ∧ s.val ≤ (n - 1) / 2 := by
  have h1 := ecdsaR_one_ne_zero
  have hz : msgScalar (List.replicate 32 0) = 0 := by decide +kernel
  have hs : ecdsaS 1 (msgScalar (List.replicate 32 0)) 1 ≠ 0 := by
    rw [ecdsaS, hz]; simpa using h1
  refine ⟨(1 : Fn) • G, _, _, List.replicate 32 0, smul_G_ne one_ne_zero, by simp,
    ecdsaValid_sign one_ne_zero h1 hs, ?_⟩
  rw [← low_iff, lowS_low]
  rfl

end Secp
