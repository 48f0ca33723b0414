import Mathlib.AlgebraicGeometry.EllipticCurve.Affine.Point
import Verif.Proof.Primes

/-!
# Specification: short Weierstrass curves `y² = x³ + b` and secp256k1 itself

The specification of point arithmetic is Mathlib's group law on the nonsingular affine points of a
Weierstrass curve; nothing here is taken from the C code.  (SEC 2, section 2.4.1 gives the
parameters.)
-/

namespace Secp

open WeierstrassCurve

/-- The Weierstrass curve `y² = x³ + b` over a field `F`. -/
def curve {F : Type} [Field F] (b : F) : Affine F :=
  { a₁ := 0, a₂ := 0, a₃ := 0, a₄ := 0, a₆ := b }

/-- The base field of secp256k1. -/
abbrev Fp := ZMod p

/-- The scalar field of secp256k1: integers modulo the group order. -/
abbrev Fn := ZMod n

/-- secp256k1: `y² = x³ + 7` over the field with `p` elements. -/
abbrev E : Affine Fp := curve (7 : Fp)

/-- The points of secp256k1, with Mathlib's group law. -/
abbrev Pt := E.Point

section generic
variable {F : Type} [Field F]

theorem curve_equation (b x y : F) : (curve b).Equation x y ↔ y ^ 2 = x ^ 3 + b := by
  rw [Affine.equation_iff]; simp [curve]

/-- `y² = x³ + b` has no point of order two: the characteristic is not two, and `-b` is not a
cube. -/
structure NoTwoTorsion (b : F) : Prop where
  two_ne : (2 : F) ≠ 0
  no_root : ∀ x : F, x ^ 3 + b ≠ 0

theorem NoTwoTorsion.y_ne {b x y : F} (hb : NoTwoTorsion b) (h : y ^ 2 = x ^ 3 + b) : y ≠ 0 := by
  rintro rfl
  exact hb.no_root x (by rw [← h]; simp)

theorem NoTwoTorsion.nonsingular {b x y : F} (hb : NoTwoTorsion b) (h : y ^ 2 = x ^ 3 + b) :
    (curve b).Nonsingular x y := by
  rw [Affine.nonsingular_iff]
  refine ⟨(curve_equation b x y).2 h, Or.inr ?_⟩
  have h0 := hb.y_ne h
  simp only [curve, zero_mul, sub_zero]
  intro hh
  have : 2 * y = 0 := by linear_combination hh
  rcases mul_eq_zero.1 this with h | h
  · exact hb.two_ne h
  · exact h0 h

theorem nonsingular_eq {b x y : F} (h : (curve b).Nonsingular x y) : y ^ 2 = x ^ 3 + b :=
  (curve_equation b x y).1 h.1

end generic
end Secp
