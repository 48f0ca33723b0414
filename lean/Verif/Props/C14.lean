import Verif.Props.C13
import Verif.Props.C52

/-! # C14: recovery is sound

`RecoveryPoint r v R` and `recoveredKey` are steps 1.1 to 1.6.1 of SEC 1, 4.1.6
(`Verif/Spec/Ecdsa.lean`). -/

namespace Secp
open Model Spec

/-- Recovery returns 1 iff `r` and `s` are nonzero, there is a point with the named x coordinate and
parity, and the key is not infinity; then it writes that key. -/
theorem C14_recover_iff (old : Bytes) (r s : Fn) {v : ℕ} (hv : v < 4) {msg : Bytes}
    (hm : msg.length = 32) (pk : Bytes) :
    ecdsaRecover (some old) (some (recObject r s v)) (some msg) = ⟨1, 0, some pk⟩ ↔
      r ≠ 0 ∧ s ≠ 0 ∧ ∃ R, RecoveryPoint r v R ∧ recoveredKey R (msgScalar msg) r s ≠ 0 ∧
        pk = keyObject (recoveredKey R (msgScalar msg) r s) := by
  constructor
  · intro h
    have h' := h
    rw [recover_obj old r s hv hm] at h'
    cases hc : ecdsaSigRecover r s (msgScalar msg) v with
    | none => rw [hc] at h'; simp at h'
    | some q =>
      obtain ⟨hr, hs, R, hR, hK⟩ := sigRecover_exists hv hc
      rw [recover_some old hv hm hr hs hR hK] at h
      exact ⟨hr, hs, R, hR, hK, (Option.some.inj (congrArg Out.val h)).symm⟩
  · rintro ⟨hr, hs, R, hR, hK, he⟩
    rw [he]
    exact recover_some old hv hm hr hs hR hK

/-- In all other cases it returns 0 and zeroes the key. -/
theorem C14_recover_fails (old : Bytes) (r s : Fn) {v : ℕ} (hv : v < 4) {msg : Bytes}
    (hm : msg.length = 32)
    (h : ¬ (r ≠ 0 ∧ s ≠ 0 ∧ ∃ R, RecoveryPoint r v R ∧ recoveredKey R (msgScalar msg) r s ≠ 0)) :
    ecdsaRecover (some old) (some (recObject r s v)) (some msg) =
      ⟨0, 0, some (List.replicate 64 0)⟩ := by
  rw [recover_obj old r s hv hm]
  cases hc : ecdsaSigRecover r s (msgScalar msg) v with
  | none => rfl
  | some q => exact absurd (sigRecover_exists hv hc) h

/-- A recovered key satisfies the ECDSA equation with the signature and the message, and it accepts
the normalized signature. -/
theorem C14_sound (old : Bytes) (r s : Fn) {v : ℕ} (hv : v < 4) {msg : Bytes} (hm : msg.length = 32)
    {pk : Bytes}
    (h : ecdsaRecover (some old) (some (recObject r s v)) (some msg) = ⟨1, 0, some pk⟩) :
    (∃ Q : Pt, Q ≠ 0 ∧ pk = keyObject Q ∧ EcdsaValid Q (msgScalar msg) r s) ∧
    ∀ old1 old2 plain low,
      recoverableConvert (some old1) (some (recObject r s v)) = ⟨1, 0, some plain⟩ →
      (ecdsaSignatureNormalize (some old2) (some plain)).val = some low →
      ecdsaVerify (some low) (some msg) (some pk) = ⟨1, 0, ()⟩ := by
  obtain ⟨hr, hs, R, hR, hK, he⟩ := (C14_recover_iff old r s hv hm pk).1 h
  have hval := recovered_valid (z := msgScalar msg) hr hs hR
  refine ⟨⟨_, hK, he, hval⟩, ?_⟩
  intro old1 old2 plain low h1 h2
  have e : plain = sigObject r s := by
    simp only [recoverableConvert, recoverableLoad_obj r s hv, signatureSave_eq] at h1
    exact (Option.some.inj (congrArg Out.val h1)).symm
  rw [e] at h2
  rw [he]
  exact C52_normalized_accepted hK r s hm hval old2 h2

/-- The key is determined by the signature and the message. -/
theorem C14_point_unique {r : Fn} {v : ℕ} {R R' : Pt} (h : RecoveryPoint r v R)
    (h' : RecoveryPoint r v R') : R = R' := recoveryPoint_unique h h'

/-- The x candidate of a recovery id 2 or 3 is a coordinate only if `r < p - n`. -/
theorem C14_overflow_bound {r : Fn} {v : ℕ} (hv : 2 ≤ v) {R : Pt} (h : RecoveryPoint r v R) :
    r.val < p - n := by
  have h1 := h.2.1
  rw [if_pos hv] at h1
  have := ptX_lt R
  omega

/-- No point has the recovery id 2 for `r = p - n`, so recovery fails. -/
example : ecdsaRecover (some []) (some (recObject ((p - n : ℕ) : Fn) 1 2)) (some (List.replicate 32 0)) =
    ⟨0, 0, some (List.replicate 64 0)⟩ :=
  C14_recover_fails [] _ 1 (by norm_num) (by simp) (fun ⟨_, _, _, hR, _⟩ =>
    absurd (C14_overflow_bound (le_refl 2) hR) (by decide +kernel))

/-- Both outcomes happen: the signature made with key 1, nonce 1 for the message 0 recovers, and
`r = 0` does not. -/
example : (∃ (r s : Fn) (v : ℕ) (pk : Bytes), v < 4 ∧
      ecdsaRecover (some []) (some (recObject r s v)) (some (List.replicate 32 0)) =
        ⟨1, 0, some pk⟩) ∧
    ecdsaRecover (some []) (some (recObject 0 1 0)) (some (List.replicate 32 0)) =
        ⟨0, 0, some (List.replicate 64 0)⟩ := by
  constructor
  · have h1 := ecdsaR_one_ne_zero
    have hz : msgScalar (List.replicate 32 0) = 0 := by decide +kernel
    have hs : ecdsaS 1 (msgScalar (List.replicate 32 0)) 1 ≠ 0 := by
      rw [ecdsaS, hz]; simpa using h1
    obtain ⟨h4, R, hR, hKey⟩ := signed_recovery (d := 1) (z := msgScalar (List.replicate 32 0))
      one_ne_zero h1
    exact ⟨_, _, _, _, h4, recover_some [] h4 (by simp) h1 (mt lowS_eq_zero.1 hs) hR
      (by rw [hKey]; exact smul_G_ne one_ne_zero)⟩
  · exact C14_recover_fails [] 0 1 (by norm_num) (by simp) (fun h => h.1 rfl)

end Secp
