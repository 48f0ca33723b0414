import Verif.Proof.Order
import Verif.Proof.GroupEq

/-!
# C41 — Group operations are complete

For every pair of points of secp256k1 (equal, opposite, or infinity included) and every Jacobian
representative of them, the point operations of `group_impl.h` return a representative of the
group-theoretic result (`+`, `-` are Mathlib's group law on the points of `y² = x³ + 7`).
-/

namespace Secp
open Model FeOps

/-- `secp256k1_gej_add_var`: P + Q for all inputs. -/
theorem C41_gej_add_var {a b : Gej Fp} {P Q : Pt} (ha : GejRep 7 a P) (hb : GejRep 7 b Q) :
    GejRep 7 (gejAddVar a b).1 (P + Q) := gejAddVar_rep neg7_not_cube ha hb

/-- `secp256k1_gej_add_ge_var`: P + Q for all inputs. -/
theorem C41_gej_add_ge_var {a : Gej Fp} {b : Ge Fp} {P Q : Pt} (ha : GejRep 7 a P)
    (hb : GeRep 7 b Q) : GejRep 7 (gejAddGeVar a b).1 (P + Q) := gejAddGeVar_rep neg7_not_cube ha hb

/-- `secp256k1_gej_add_ge` (branch free): P + Q for all inputs with `Q` not infinity, which is the
documented precondition of this function (group.h:112). -/
theorem C41_gej_add_ge {a : Gej Fp} {b : Ge Fp} {P Q : Pt} (ha : GejRep 7 a P)
    (hb : GeRep 7 b Q) (hQ : Q ≠ 0) : GejRep 7 (gejAddGe a b) (P + Q) :=
  gejAddGe_rep neg7_not_cube ha hb (by
    cases h : b.infinity
    · rfl
    · exact absurd (hb.inf_iff.1 h) hQ)

/-- `secp256k1_gej_add_zinv_var`: adds the point whose Jacobian coordinates are
`(b.x, b.y, 1/bzinv)`. -/
theorem C41_gej_add_zinv_var {a : Gej Fp} {b : Ge Fp} {bzinv : Fp} {P Q : Pt} (ha : GejRep 7 a P)
    (hz : bzinv ≠ 0)
    (hb : GejRep 7 { x := b.x, y := b.y, z := bzinv⁻¹, infinity := b.infinity } Q) :
    GejRep 7 (gejAddZinvVar a b bzinv) (P + Q) := gejAddZinvVar_rep neg7_not_cube ha hz hb

/-- `secp256k1_gej_double`: 2P for all inputs. -/
theorem C41_gej_double {a : Gej Fp} {P : Pt} (ha : GejRep 7 a P) :
    GejRep 7 (gejDouble a) (P + P) := gejDouble_rep neg7_not_cube ha

/-- `secp256k1_gej_double_var`: 2P for all inputs. -/
theorem C41_gej_double_var {a : Gej Fp} {P : Pt} (ha : GejRep 7 a P) :
    GejRep 7 (gejDoubleVar a).1 (P + P) := gejDoubleVar_rep neg7_not_cube ha

/-- `secp256k1_gej_neg`, `secp256k1_ge_neg`: -P for all inputs. -/
theorem C41_neg {a : Gej Fp} {b : Ge Fp} {P Q : Pt} (ha : GejRep 7 a P) (hb : GeRep 7 b Q) :
    GejRep 7 (gejNeg a) (-P) ∧ GeRep 7 (geNeg b) (-Q) := ⟨gejNeg_rep ha, geNeg_rep hb⟩

/-- Conversions between the representations, and rescaling, keep the point. -/
theorem C41_convert {a : Gej Fp} {b : Ge Fp} {P Q : Pt} (ha : GejRep 7 a P) (hb : GeRep 7 b Q) :
    GeRep 7 (geSetGej a) P ∧ GeRep 7 (geSetGejVar a) P ∧ GejRep 7 (gejSetGe b) Q ∧
      ∀ s : Fp, s ≠ 0 → GejRep 7 (gejRescale a s) P :=
  ⟨geSetGej_rep ha, geSetGejVar_rep ha, gejSetGe_rep hb, fun _ hs => gejRescale_rep ha hs⟩

/-- The equality tests decide equality of points, whatever the representatives. -/
theorem C41_eq {a b : Gej Fp} {c d : Ge Fp} {P Q R S : Pt} (ha : GejRep 7 a P)
    (hb : GejRep 7 b Q) (hc : GeRep 7 c R) (hd : GeRep 7 d S) :
    (gejEqVar a b = true ↔ P = Q) ∧ (gejEqGeVar a c = true ↔ P = R) ∧
      (geEqVar c d = true ↔ R = S) :=
  ⟨gejEqVar_iff neg7_not_cube ha hb, gejEqGeVar_iff neg7_not_cube ha hc, geEqVar_iff hc hd⟩

/-- `secp256k1_gej_eq_x_var` compares the affine x coordinate of a finite point. -/
theorem C41_eq_x {a : Gej Fp} {x y : Fp} {h : E.Nonsingular x y}
    (ha : GejRep 7 a (.some x y h)) (x' : Fp) : gejEqXVar x' a = true ↔ x' = x :=
  gejEqXVar_iff ha x'

/-- `secp256k1_ge_is_valid_var` accepts exactly the structures that represent a finite point. -/
theorem C41_is_valid (a : Ge Fp) : geIsValidVar a = true ↔ ∃ P : Pt, P ≠ 0 ∧ GeRep 7 a P :=
  geIsValidVar_iff a

/-- Non-vacuity: the generator with two different `z` coordinates (1 and 2), its negative, and
infinity satisfy the hypotheses above, including the exceptional cases P = Q, P = -Q, Q = 0. -/
example : GejRep 7 (gejSetGe ⟨(gx : Fp), (gy : Fp), false⟩) G ∧
    GejRep 7 (gejRescale (gejSetGe ⟨(gx : Fp), (gy : Fp), false⟩) 2) G ∧
    GejRep 7 (gejNeg (gejSetGe ⟨(gx : Fp), (gy : Fp), false⟩)) (-G) ∧
    GejRep 7 (gejInfinity : Gej Fp) (0 : Pt) ∧ G ≠ 0 := by
  have h : GeRep 7 (⟨(gx : Fp), (gy : Fp), false⟩ : Ge Fp) G := GeRep.intro rfl rfl rfl
  exact ⟨gejSetGe_rep h, gejRescale_rep (gejSetGe_rep h) two_ne_zero_Fp,
    gejNeg_rep (gejSetGe_rep h), gejInfinity_rep _, G_ne_zero⟩

end Secp
