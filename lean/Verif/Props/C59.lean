import Verif.Proof.Jacobi64
import Verif.Props.C46
import Verif.Model.GroupX

/-!
# C59: the test for squares is exact

`secp256k1_fe_is_square_var` (field.h:269-270) runs at most 25 rounds of an algorithm for the Jacobi
symbol that may give up, and then falls back on a square root.  The specification of the symbol is
Mathlib's `jacobiSym`, written `J(a | b)`; that of the test is Mathlib's `IsSquare`.
-/

namespace Secp
open Model Spec
open scoped NumberTheorySymbols

/-- `secp256k1_jacobi64_maybe_var` (modinv64.h:41-44) for every odd modulus in `[3, 2^256]` and every
residue: there is no undefined behaviour, and the result is the Jacobi symbol or 0 for "unknown".  Limb 0
of the modulus must not be negative unless limb 1 is zero (modinv64_impl.h:742 joins them by `|`). -/
theorem C59_jacobi {M : Modinfo} {m : ℤ} (hM : M.Ok m)
    (hM' : 0 ≤ M.modulus.v0 ∨ M.modulus.v1 = 0) {x : S62} (hx : x.Canon) (hlt : x.int < m) :
    ∃ r, jacobi64MaybeVar x M = some r ∧ (r = 0 ∨ r = J(x.int | m.toNat)) :=
  jacobi64MaybeVar_spec hM hM' hx hlt

/-- `secp256k1_fe_is_square_var` on limbs, for every field element of any magnitude up to 32: there is no
undefined behaviour, and the answer tells whether the element is a square modulo `p`. -/
theorem C59_is_square [Fe5.LimbInv] {x : Fe5} {v : Fp} (hx : x.Rep 32 v) :
    ∃ b, Fe5.isSquareVar? x = some b ∧ (b = true ↔ IsSquare v) := by
  obtain ⟨hn, hv⟩ := Fe5.normalize_spec hx.mag
  have hlt : (Fe5.normalize x).nat < p := hn.lt
  have hvn : ((Fe5.normalize x).nat : Fp) = v := by rw [hv, ← hx.val, ZMod.natCast_mod]
  unfold Fe5.isSquareVar?
  dsimp only
  rw [Fe5.normalizeVar_eq hx.mag]
  have hz : Fe5.isZero (Fe5.normalize x) = true ↔ v = 0 := by
    rw [(C45_is_zero_odd_cmp hn hn hvn hvn).1, decide_eq_true_iff]
  by_cases h0 : Fe5.isZero (Fe5.normalize x) = true
  · rw [if_pos h0]
    refine ⟨true, rfl, iff_of_true rfl ?_⟩
    rw [hz.mp h0]
    exact IsSquare.zero
  rw [if_neg h0]
  have hv0 : v ≠ 0 := fun h => h0 (hz.mpr h)
  obtain ⟨c1, c2⟩ := Fe5.toSigned62_spec hn
  obtain ⟨r, e, hr⟩ := jacobi64MaybeVar_spec modinfoFe_ok (Or.inr rfl) c1
    (by rw [c2]; exact_mod_cast hlt)
  rw [e, Option.bind_some]
  have : Fact p.Prime := ⟨p_prime⟩
  rw [c2, Int.toNat_natCast, ← jacobiSym.legendreSym.to_jacobiSym] at hr
  by_cases hr0 : r = 0
  · rw [if_pos hr0]
    have hrep : (Fe5.normalize x).Rep 8 v := ⟨hn.mag.mono (by norm_num), hvn⟩
    exact ⟨_, rfl, (C58_sqrt hrep).1⟩
  · rw [if_neg hr0]
    refine ⟨_, rfl, ?_⟩
    have hr := hr.resolve_left hr0
    have hc : (((Fe5.normalize x).nat : ℤ) : ZMod p) ≠ 0 := by
      rw [Int.cast_natCast]
      change ((Fe5.normalize x).nat : Fp) ≠ 0
      rw [hvn]; exact hv0
    rw [decide_eq_true_iff]
    have h1 : r ≥ 0 ↔ legendreSym p (Fe5.normalize x).nat = 1 := by
      rw [← hr]
      rcases legendreSym.eq_one_or_neg_one p hc with h | h <;> rw [← hr] at h <;> omega
    rw [h1, legendreSym.eq_one_iff p hc, Int.cast_natCast]
    change IsSquare ((Fe5.normalize x).nat : Fp) ↔ _
    rw [hvn]

/-- The answer on limbs is that of the value-level test, on which the other properties rest. -/
theorem C59_is_square_value [Fe5.LimbInv] {x : Fe5} {v : Fp} (hx : x.Rep 32 v) :
    Fe5.isSquareVar? x = some (feIsSquareVar v) := by
  obtain ⟨b, e, hb⟩ := C59_is_square hx
  rw [e]
  congr 1
  rw [Bool.eq_iff_iff, hb]
  unfold feIsSquareVar
  by_cases h : v = 0
  · subst h
    rw [if_pos (by unfold feIsZero; simp)]
    exact iff_of_true IsSquare.zero rfl
  · rw [if_neg (by unfold feIsZero; simpa using h), sqrt_snd]

/-! ### Examples -/

/-- The hypotheses of `C59_is_square` hold for the largest limbs of magnitude 8, which stand for a
square; the algorithm finds the symbol without the fallback. -/
example : maxFe8.Rep 32 (maxFe8.nat : Fp) ∧
    jacobi64MaybeVar (Fe5.toSigned62 (Fe5.normalizeVar maxFe8)) modinfoFe = some 1 :=
  ⟨@Fe5.Rep.mono safegcdInv _ _ _ _ maxFe8_rep (by norm_num), by decide +kernel⟩

/-- `3` is not a square modulo `p`, and `4` is. -/
example : @Fe5.isSquareVar? safegcdInv ⟨3, 0, 0, 0, 0⟩ = some false ∧
    @Fe5.isSquareVar? safegcdInv ⟨4, 0, 0, 0, 0⟩ = some true := by
  constructor <;> decide +kernel

/-- A composite modulus, which the interface also admits: `(7 | 15) = -1`, `(2 | 15) = 1`. -/
example : (⟨⟨15, 0, 0, 0, 0⟩, 0x2EEEEEEEEEEEEEEF⟩ : Modinfo).Ok 15 ∧
    jacobi64MaybeVar ⟨7, 0, 0, 0, 0⟩ ⟨⟨15, 0, 0, 0, 0⟩, 0x2EEEEEEEEEEEEEEF⟩ = some (-1) ∧
    jacobi64MaybeVar ⟨2, 0, 0, 0, 0⟩ ⟨⟨15, 0, 0, 0, 0⟩, 0x2EEEEEEEEEEEEEEF⟩ = some 1 := by
  refine ⟨by constructor <;> decide, by decide +kernel, by decide +kernel⟩

end Secp
