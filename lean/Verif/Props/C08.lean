import Verif.Proof.Ecdsa

/-! # C08: signature normalization -/

namespace Secp
open Model Spec

/-- `secp256k1_ecdsa_signature_normalize` returns 1 iff `s > n/2`, and writes the signature with the
same `r` and with the low one of `s` and `n - s`. -/
theorem C08_normalize (r s : Fn) (old : Bytes) :
    ecdsaSignatureNormalize (some old) (some (sigObject r s)) =
      if 2 * s.val > n then ⟨1, 0, some (sigObject r (-s))⟩ else ⟨0, 0, some (sigObject r s)⟩ := by
  unfold ecdsaSignatureNormalize
  simp only [signatureLoad_obj, signatureSave_eq]
  by_cases h : 2 * s.val > n
  · rw [if_pos h, (scIsHigh_iff s).2 h]
    rfl
  · rw [if_neg h, Bool.eq_false_iff.2 (fun h' => h ((scIsHigh_iff s).1 h'))]
    rfl

/-- With a NULL output it reports the same. -/
theorem C08_normalize_null (r s : Fn) :
    ecdsaSignatureNormalize none (some (sigObject r s)) =
      ⟨if 2 * s.val > n then 1 else 0, 0, none⟩ := by
  unfold ecdsaSignatureNormalize
  simp only [signatureLoad_obj]
  by_cases h : 2 * s.val > n
  · rw [if_pos h, (scIsHigh_iff s).2 h]
    rfl
  · rw [if_neg h, Bool.eq_false_iff.2 (fun h' => h ((scIsHigh_iff s).1 h'))]
    rfl

/-- As integers: the new `s` is `n - s` when `s > n/2`; the output `s` is at most `(n-1)/2`. -/
theorem C08_low (r s : Fn) (old : Bytes) :
    ∃ s' : Fn, (ecdsaSignatureNormalize (some old) (some (sigObject r s))).val =
        some (sigObject r s') ∧
      s'.val = (if 2 * s.val > n then n - s.val else s.val) ∧ s'.val ≤ (n - 1) / 2 := by
  rw [C08_normalize]
  have hn := n_odd
  by_cases h : 2 * s.val > n
  · rw [if_pos h, if_pos h]
    have hs : s ≠ 0 := by rintro rfl; simp at h
    have : NeZero s := ⟨hs⟩
    refine ⟨-s, rfl, ZMod.val_neg_of_ne_zero s, ?_⟩
    rw [ZMod.val_neg_of_ne_zero]
    have := ZMod.val_lt s
    omega
  · rw [if_neg h, if_neg h]
    exact ⟨s, rfl, rfl, by omega⟩

/-- In place (input and output the same object): the result is the one above, and a second
normalization changes nothing and returns 0. -/
theorem C08_idempotent (r s : Fn) (old : Bytes) {obj : Bytes}
    (h : (ecdsaSignatureNormalize (some old) (some (sigObject r s))).val = some obj) :
    ecdsaSignatureNormalize (some obj) (some obj) = ⟨0, 0, some obj⟩ := by
  obtain ⟨s', h1, -, h2⟩ := C08_low r s old
  rw [h1] at h
  rw [← Option.some.inj h, C08_normalize, if_neg]
  have hn := n_odd
  omega

/-- A high `s`: the first call changes it, the second does not. -/
example : ecdsaSignatureNormalize (some []) (some (sigObject 5 (-7))) = ⟨1, 0, some (sigObject 5 7)⟩ ∧
    ecdsaSignatureNormalize (some (sigObject 5 7)) (some (sigObject 5 7)) = ⟨0, 0, some (sigObject 5 7)⟩ := by
  have h := C08_normalize 5 (-7) []
  rw [if_pos (by decide +kernel), neg_neg] at h
  exact ⟨h, C08_idempotent 5 (-7) [] (by rw [h])⟩

/-- The boundary: `(n-1)/2` is low, `(n+1)/2` is high. -/
example : ¬ 2 * (((n - 1) / 2 : ℕ) : Fn).val > n ∧ 2 * (((n + 1) / 2 : ℕ) : Fn).val > n := by
  decide +kernel

end Secp
