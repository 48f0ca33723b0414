import Verif.Proof.NatCurve

/-! # The comparison functions of the group code -/

namespace Secp
open WeierstrassCurve Model FeOps

variable {F : Type} [Field F] [DecidableEq F]

theorem equal_iff (a b : F) : FeOps.equal a b = true ↔ a = b := by
  simp only [FeOps.equal, negate, add, normalizesToZero, decide_eq_true_eq]
  constructor
  · intro h; linear_combination -h
  · intro h; linear_combination -h

theorem gejEqVar_iff {b : F} (hb : NoTwoTorsion b) {a c : Gej F} {P Q} (ha : GejRep b a P)
    (hc : GejRep b c Q) : gejEqVar a c = true ↔ P = Q := by
  have := (gejAddVar_rep hb (gejNeg_rep ha) hc).inf_iff
  unfold gejEqVar
  rw [this, neg_add_eq_zero]

theorem gejEqGeVar_iff {b : F} (hb : NoTwoTorsion b) {a : Gej F} {c : Ge F} {P Q}
    (ha : GejRep b a P) (hc : GeRep b c Q) : gejEqGeVar a c = true ↔ P = Q := by
  have := (gejAddGeVar_rep hb (gejNeg_rep ha) hc).inf_iff
  unfold gejEqGeVar
  rw [this, neg_add_eq_zero]

theorem geEqVar_iff {b : F} {a c : Ge F} {P Q} (ha : GeRep b a P) (hc : GeRep b c Q) :
    geEqVar a c = true ↔ P = Q := by
  unfold geEqVar
  cases hi : a.infinity <;> cases hj : c.infinity
  · obtain ⟨h1, rfl⟩ := ha.elim hi
    obtain ⟨h2, rfl⟩ := hc.elim hj
    have e1 := equal_iff a.x c.x
    have e2 := equal_iff a.y c.y
    rw [Affine.Point.some.injEq, ← e1, ← e2]
    simp only [normalizeWeak]
    cases FeOps.equal a.x c.x <;> cases FeOps.equal a.y c.y <;> simp
  · obtain ⟨h1, rfl⟩ := ha.elim hi
    rw [hc.inf_iff.1 hj]
    simp
  · obtain ⟨h1, rfl⟩ := hc.elim hj
    rw [ha.inf_iff.1 hi]
    simp
  · rw [hc.inf_iff.1 hj, ha.inf_iff.1 hi]; simp

theorem gejEqXVar_iff {b : F} {a : Gej F} {x y : F} {h : (curve b).Nonsingular x y}
    (ha : GejRep b a (.some x y h)) (x' : F) : gejEqXVar x' a = true ↔ x' = x := by
  have hi : a.infinity = false := by
    cases hi : a.infinity
    · rfl
    · exact absurd (ha.inf_iff.1 hi) (by simp)
  obtain ⟨x₁, y₁, hn, hz, hx, hy, e⟩ := ha.elim hi
  rw [Affine.Point.some.injEq] at e
  obtain ⟨rfl, rfl⟩ := e
  unfold gejEqXVar
  dsimp only
  rw [equal_iff, hx]
  simp only [sqr, mul]
  constructor
  · intro h
    have : a.z ^ 2 * (x' - x) = 0 := by linear_combination h
    rcases mul_eq_zero.1 this with h | h
    · exact absurd (pow_eq_zero_iff (by norm_num) |>.1 h) hz
    · exact sub_eq_zero.1 h
  · rintro rfl; ring

theorem geIsValidVar_iff (a : Ge Fp) : geIsValidVar a = true ↔ ∃ P : Pt, P ≠ 0 ∧ GeRep 7 a P := by
  unfold geIsValidVar
  cases hi : a.infinity
  · simp only [Bool.false_eq_true, if_false, equal_iff, sqr, mul, addInt, curveB]
    constructor
    · intro h
      have hn : E.Nonsingular a.x a.y := neg7_not_cube.nonsingular (by push_cast at h; linear_combination h)
      exact ⟨.some a.x a.y hn, by simp, GeRep.intro hi rfl rfl⟩
    · rintro ⟨P, h0, h⟩
      obtain ⟨hn, rfl⟩ := h.elim hi
      have := nonsingular_eq hn
      push_cast
      linear_combination this
  · simp only [if_true, Bool.false_eq_true, false_iff, not_exists, not_and]
    intro P h0 h
    exact h0 (h.inf_iff.1 hi)

end Secp
