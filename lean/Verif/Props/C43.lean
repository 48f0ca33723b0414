import Verif.Proof.EcmultXonly

/-!
# C43 — Secret multiplication is correct for all inputs

`secp256k1_ecmult_const` returns a representative of `q·P` for every point `P` (infinity included)
and every scalar `q ∈ [0, n)`.  `secp256k1_ecmult_const_xonly` maps the x coordinate `n/d` to the
x coordinate of `q·P` for the points `P` with that coordinate, and reports when there is none.
-/

namespace Secp
open Model

/-- `secp256k1_ecmult_const(r, a, q)` is `q·P`. -/
theorem C43_ecmult_const {a : Ge Fp} {P : Pt} (ha : GeRep 7 a P) (q : Fn) :
    GejRep (7 : Fp) (ecmultConst a q) (q.val • P) := by
  rw [val_smul]; exact ecmultConst_rep ha q

/-- `secp256k1_ecmult_const_xonly`: if the curve has a point with x coordinate `num/den`, the
function succeeds and returns the x coordinate of `q` times that point.  (`q ≠ 0` and `den ≠ 0` are
documented preconditions, ecmult_const.h:26-34; a NULL denominator counts as 1.) -/
theorem C43_xonly_some {num : Fp} {den : Option Fp} (hd : den ≠ some 0) {q : Fn} (hq : q ≠ 0)
    (known : Bool) {y : Fp} (hP : E.Nonsingular (num / den.getD 1) y) :
    ∃ x' y', ∃ h' : E.Nonsingular x' y', q.val • (.some _ _ hP : Pt) = .some x' y' h' ∧
      ecmultConstXonly num den q known = some x' := by
  have hd' : xonlyDen den ≠ 0 := by
    cases den with
    | none => exact one_ne_zero
    | some d => exact fun h => hd (by rw [show d = 0 from h])
  obtain ⟨x', y', h', e, hx⟩ := xonly_core hd' hP hq rfl
  refine ⟨x', y', h', by rw [val_smul]; exact e, ?_⟩
  rw [ecmultConstXonly_eq]
  simp only
  have hs : feIsSquareVar ((num ^ 3 + 7 * xonlyDen den ^ 3) * xonlyDen den) = true :=
    (square_iff_on_curve hd').2 ⟨y, nonsingular_eq hP⟩
  rw [hs, Bool.or_true, if_pos rfl, hx]

/-- `secp256k1_ecmult_const_xonly` without the promise that the coordinate is on the curve: it fails
exactly when the curve has no point with that x coordinate. -/
theorem C43_xonly_none {num : Fp} {den : Option Fp} (hd : den ≠ some 0) (q : Fn) :
    ecmultConstXonly num den q false = none ↔ ¬ ∃ y : Fp, y ^ 2 = (num / den.getD 1) ^ 3 + 7 := by
  have hd' : xonlyDen den ≠ 0 := by
    cases den with
    | none => exact one_ne_zero
    | some d => exact fun h => hd (by rw [show d = 0 from h])
  have := square_iff_on_curve (nn := num) hd'
  change _ ↔ ¬ ∃ y : Fp, y ^ 2 = (num / xonlyDen den) ^ 3 + 7
  rw [← this, ecmultConstXonly_eq]
  simp only [Bool.false_or]
  split <;> simp_all

/-- The generator, multiplied by 5. -/
example : GejRep (7 : Fp) (ecmultConst (geFromStorage (preG 0)) 5) (5 • G) := by
  have h := C43_ecmult_const (preG_entry 0 (by norm_num)) 5
  have e5 : (5 : Fn).val = 5 := by decide +kernel
  rw [e5, mul_zero, zero_add, one_smul] at h
  exact h

/-- The x coordinate of the generator, given as a fraction `2·gx / 2`, meets the hypotheses. -/
example : ∃ y, E.Nonsingular (2 * (gx : Fp) / (some (2 : Fp)).getD 1) y ∧ some (2 : Fp) ≠ some 0 ∧
    (5 : Fn) ≠ 0 := by
  have h2 : (2 : Fp) ≠ 0 := neg7_not_cube.two_ne
  refine ⟨gy, ?_, by simpa using h2, by decide +kernel⟩
  rw [Option.getD_some, mul_div_cancel_left₀ _ h2]
  exact G_nonsingular

/-- There are x coordinates without a point: `x = 5`. -/
example : ecmultConstXonly 5 none 1 false = none := by
  rw [C43_xonly_none (by simp)]
  have h : feIsSquareVar (((5 : ℕ) : Fp) ^ 3 + 7) = false := by decide +kernel
  intro hy
  obtain ⟨y, hy⟩ := hy
  rw [Option.getD_none, div_one] at hy
  have : feIsSquareVar (((5 : ℕ) : Fp) ^ 3 + 7) = true :=
    (feIsSquareVar_iff _).2 ⟨y, by rw [← sq, hy]; norm_num⟩
  rw [h] at this
  cases this

end Secp
