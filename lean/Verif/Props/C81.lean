import Verif.Proof.VerifyMulAll
import Verif.Props.C80

/-!
# C81: no check of a build with `VERIFY` fails in the multiplication of points

C80 covers the field and point functions one by one and in any order, for points within the documented magnitudes.  The
multiplication code has checks that no bound on magnitudes implies: the digits of the signed representations and the
table indices are in range, no entry of a table of odd multiples is the point at infinity, the split scalars are short,
and an x-only product is not the point at infinity.  The model with the checks is `Verif/Model/VerifyEcmult.lean`; what is
claimed is in `Verif/Spec/VerifyMul.lean`.
-/

namespace Secp
open Model Model.Verify

section
attribute [local instance] safegcdInv verifyRep5 verifyMul5

/-- 64-bit limbs. -/
theorem C81_multiplication_64 : MulChecks Fe5 := mulChecks rfl

end

section
attribute [local instance] safegcdInv32 verifyRep10 verifyMul10

/-- 32-bit limbs. -/
theorem C81_multiplication_32 : MulChecks Fe10 := mulChecks rfl

end

/-! ### The checks are not empty -/

/-- A table of odd multiples is read only at odd digits of less than `w` bits. -/
theorem C81_digit {α : Type} [FeOps α] [FeCheck α] {pre : List (Ge (FeV α))} {k : ℤ} {w : ℕ}
    {r : Ge (FeV α)} (h : tableGetGeV pre k w = some r) : k % 2 = 1 ∧ |k| < 2 ^ (w - 1) := by
  unfold tableGetGeV tableVerify check at h
  by_cases h1 : (k % 2 == 1) = true
  · by_cases h2 : -(2 ^ (w - 1) - 1) ≤ k
    · by_cases h3 : k ≤ 2 ^ (w - 1) - 1
      · exact ⟨beq_iff_eq.1 h1, abs_lt.2 ⟨by omega, by omega⟩⟩
      · rw [decide_eq_true h2, decide_eq_false h3] at h
        simp [h1] at h
    · rw [decide_eq_false h2] at h
      simp [h1] at h
  · simp [h1] at h

/-- A product with the scalar 0 is never formed by the x-only multiplication. -/
theorem C81_xonly_scalar {α : Type} [FeOps α] [FeMem α] [FeCheck α] {n : FeV α} {d : Option (FeV α)} {known : Bool} {r : FeV α} :
    ecmultConstXonlyV n d 0 known ≠ some (some r) := by
  have key : ∀ g, xonlyMulV n d 0 g = none := fun g => by
    unfold xonlyMulV
    cases feMul g n with
    | none => rfl
    | some px =>
      cases feSqr g with
      | none => rfl
      | some py =>
        have e : check (!scIsZero 0) = none := by unfold scIsZero check; simp
        rw [e]; rfl
  unfold ecmultConstXonlyV
  cases xonlyPolyV n d known with
  | none => simp
  | some g => simp [key]

/-- The table of odd multiples of the point at infinity is never computed. -/
theorem C81_table_infinity {α : Type} [FeOps α] [FeCheck α] {a : Gej (FeV α)} (h : a.infinity = true) (cnt : ℕ) :
    oddMultiplesTableV cnt a = none := by
  unfold oddMultiplesTableV
  rw [h]; rfl

/-! ### Concrete cases -/

section
attribute [local instance] safegcdInv verifyRep5 verifyMul5

theorem genV_onCurve : OnCurve (gejErase genV) := by
  right
  have e : ∀ k : ℕ, k < p → ((Value.nat (FeOps.feConst k : Fe5) : ℕ) : Fp) = (k : Fp) := fun k hk => by
    have := (Fe5.feConst_spec (lt_trans hk p_lt_256)).1
    show ((Fe5.nat (Fe5.feConst k) : ℕ) : Fp) = _
    rw [this]
  have hg := nonsingular_eq G_nonsingular
  constructor
  · show ((Value.nat (FeOps.feConst 1 : Fe5) : ℕ) : Fp) ≠ 0
    rw [e 1 (by decide +kernel), Nat.cast_one]; exact one_ne_zero
  · show ((Value.nat (FeOps.feConst gy : Fe5) : ℕ) : Fp) ^ 2 = ((Value.nat (FeOps.feConst gx : Fe5) : ℕ) : Fp) ^ 3 +
      7 * ((Value.nat (FeOps.feConst 1 : Fe5) : ℕ) : Fp) ^ 6
    rw [e 1 (by decide +kernel), e gx (by decide +kernel), e gy (by decide +kernel), Nat.cast_one, one_pow, mul_one]
    exact hg

/-- 5·G + 7·G, and a hundred times the generator in one call. -/
example : Runs (ecmultWithV shippedTab genV 5 (some 7)) (GoodGej (ecmultWith shippedTab (gejErase genV) 5 (some 7))) :=
  C81_multiplication_64.ecmult shippedTab genV 5 (some 7) (.inl rfl) genV_tracked genV_onCurve

example : Runs (straussWithV shippedTab (List.replicate 100 (genV, 3)) none) fun r => GejTracked r :=
  (C81_multiplication_64.strauss shippedTab (List.replicate 100 (genV, 3)) none (.inl rfl) (fun q hq => by
    rw [List.eq_of_mem_replicate hq]
    exact ⟨genV_tracked, genV_onCurve⟩)).mono fun _ h => h.2

/-- A context blinded twice and reset in between. -/
example (k b : Fn) : Runs (genHistoryV (⟨comb86, false, 0, ⟨genV.x, genV.y, false⟩, genV.z⟩ : GenCtxOf (FeV Fe5))
    [some (genV.x, b), none, some (genV.y, 0)] >>= fun c => ecmultGenV c k) fun r => GejTracked r :=
  (C81_multiplication_64.gen _ _ k (.inr (.inr (.inl rfl))) (fun e he q hq => by
    simp only [List.mem_cons, List.not_mem_nil, or_false] at he
    rcases he with rfl | rfl | rfl
    · rw [← Option.some.inj hq]; exact ⟨genV_tracked.x, le_refl 1⟩
    · cases hq
    · rw [← Option.some.inj hq]; exact ⟨genV_tracked.y, le_refl 1⟩)).mono fun _ h => h.2

/-- A point that is not on the curve: (0, 1) has order 3 on y² = x³ + 1, and the table of its odd multiples reaches the
point at infinity.  It is within the magnitudes, but the program is aborted. -/
def offV : Gej (FeV Fe5) := ⟨feConstV 0, feConstV 1, feConstV 1, false⟩

example : GejTracked offV := by
  have hx : FeIs (feConstV 0 : FeV Fe5) _ 1 := feConst_ok (by decide +kernel)
  have hz : FeIs (feConstV 1 : FeV Fe5) _ 1 := feConst_ok (by decide +kernel)
  exact ⟨hx.tr, hz.tr, hz.tr, hx.le.trans (by decide), hz.le.trans (by decide), hz.le⟩

example : ecmultWithV shippedTab offV 1 none = none := by decide +kernel

/-- A denominator that is zero. -/
example : ecmultConstXonlyV genV.x (some offV.x) 1 true = none := by decide +kernel

/-- An x-coordinate that is not on the curve is rejected; the program is not aborted. -/
example : (ecmultConstXonlyV (feConstV 5 : FeV Fe5) none 1 false).map (·.isSome) = some false := by decide +kernel

/-- A comb entry that is not a field element. -/
example : geFromStorageV (p, 1) = (none : Option (Ge (FeV Fe5))) := by decide +kernel

/-- A digit that is even, or too large. -/
example : tableGetGeV [(⟨genV.x, genV.y, false⟩ : Ge (FeV Fe5))] 2 5 = none := by decide +kernel
example : tableGetGeV [(⟨genV.x, genV.y, false⟩ : Ge (FeV Fe5))] 17 5 = none := by decide +kernel

end

end Secp
