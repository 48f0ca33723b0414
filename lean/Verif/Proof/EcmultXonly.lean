import Verif.Proof.EcmultConst

/-! # x-only multiplication -/

namespace Secp
open WeierstrassCurve Model FeOps

local notation "hb7" => neg7_not_cube

theorem xonly_core {nn d y : Fp} (hd : d ≠ 0) (hn : (curve 7).Nonsingular (nn / d) y) {q : Fn}
    (hq : q ≠ 0) {g : Fp} (hg : g = nn ^ 3 + 7 * d ^ 3) :
    ∃ x' y', ∃ h' : (curve 7).Nonsingular x' y', q • (.some _ _ hn : Pt) = .some x' y' h' ∧
      (ecmultConst ⟨g * nn, g ^ 2, false⟩ q).x *
        ((ecmultConst ⟨g * nn, g ^ 2, false⟩ q).z ^ 2 * g * d)⁻¹ = x' := by
  have hy := nonsingular_eq hn
  have hy0 := (hb7).y_ne hy
  have hgy : g = y ^ 2 * d ^ 3 := by rw [hy, hg]; field_simp
  have hv : y * d ^ 2 ≠ 0 := mul_ne_zero hy0 (pow_ne_zero 2 hd)
  have hP : GeRep (7 * (y * d ^ 2) ^ 6) (⟨g * nn, g ^ 2, false⟩ : Ge Fp)
      (iso hb7 hv (.some _ _ hn)) := by
    rw [iso_rep_ge]
    apply GejRep.intro rfl hv
    · simp only; rw [hgy]; field_simp
    · simp only; rw [hgy]; ring
  have hr := ecmultConst_iso_rep hv hP q
  generalize ecmultConst ⟨g * nn, g ^ 2, false⟩ q = r at *
  have hne : q • (.some _ _ hn : Pt) ≠ 0 := by
    intro h
    rcases smul_eq_zero_iff.1 h with h | h
    · exact hq h
    · exact absurd h (Affine.Point.some_ne_zero _)
  have hi : r.infinity = false := by
    by_contra hi
    have := hr.inf_iff.1 (by simpa using hi)
    rw [iso_eq_zero] at this
    exact hne this
  rw [iso_rep] at hr
  obtain ⟨x', y', h', hz, hx, _, e⟩ := hr.elim hi
  simp only at hz hx
  refine ⟨x', y', h', e, ?_⟩
  have ez : r.z ^ 2 * g * d = (r.z * (y * d ^ 2)) ^ 2 := by rw [hgy]; ring
  rw [ez, hx, mul_assoc, mul_inv_cancel₀ (pow_ne_zero 2 hz), mul_one]

/-- The denominator, 1 if absent. -/
def xonlyDen (d : Option Fp) : Fp := d.getD 1

theorem ecmultConstXonly_eq (nn : Fp) (d : Option Fp) (q : Fn) (known : Bool) :
    ecmultConstXonly nn d q known =
      let D := xonlyDen d
      let g := nn ^ 3 + 7 * D ^ 3
      if known || feIsSquareVar (g * D) then
        some ((ecmultConst ⟨g * nn, g ^ 2, false⟩ q).x *
          ((ecmultConst ⟨g * nn, g ^ 2, false⟩ q).z ^ 2 * g * D)⁻¹)
      else none := by
  unfold ecmultConstXonly xonlyDen
  cases d with
  | none =>
    have e : addInt (mul (sqr nn) nn) curveB = nn ^ 3 + 7 := by
      simp only [mul, sqr, addInt, curveB]; push_cast; ring
    simp only [e, Option.getD_none, mul_one, one_pow]
    cases (known || feIsSquareVar (nn ^ 3 + 7))
    · simp
    · simp [mul, sqr, inv, sq]
  | some d =>
    have e : add (mul (sqr nn) nn) (mul (mulInt (sqr d) curveB) d) = nn ^ 3 + 7 * d ^ 3 := by
      simp only [mul, sqr, add, mulInt, curveB]; push_cast; ring
    have e2 : mul (nn ^ 3 + 7 * d ^ 3) d = (nn ^ 3 + 7 * d ^ 3) * d := rfl
    simp only [e, e2, Option.getD_some]
    cases (known || feIsSquareVar ((nn ^ 3 + 7 * d ^ 3) * d))
    · simp
    · simp [mul, sqr, inv, sq]

theorem square_iff_on_curve {nn D : Fp} (hd : D ≠ 0) :
    feIsSquareVar ((nn ^ 3 + 7 * D ^ 3) * D) = true ↔ ∃ y : Fp, y ^ 2 = (nn / D) ^ 3 + 7 := by
  rw [feIsSquareVar_iff, isSquare_iff_exists_sq]
  constructor
  · rintro ⟨y, h⟩
    refine ⟨y / D ^ 2, ?_⟩
    rw [div_pow, ← h]
    field_simp
  · rintro ⟨y, h⟩
    refine ⟨y * D ^ 2, ?_⟩
    rw [mul_pow, h]
    field_simp

end Secp
