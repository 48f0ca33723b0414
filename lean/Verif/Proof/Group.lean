import Mathlib.Tactic.FieldSimp
import Mathlib.Tactic.LinearCombination
import Verif.Spec.Rep

/-!
# The group model computes Mathlib's group law

`GeRep b a P` / `GejRep b a P`: the (affine / Jacobian) structure `a` represents the point `P` of
`y² = x³ + b`.
-/

namespace Secp

open WeierstrassCurve Model FeOps

variable {F : Type} [Field F] [DecidableEq F]

section
omit [DecidableEq F]
theorem some_eq_some {b x y x' y' : F} {h : (curve b).Nonsingular x y}
    {h' : (curve b).Nonsingular x' y'} (hx : x = x') (hy : y = y') :
    (Affine.Point.some x y h : (curve b).Point) = .some x' y' h' := by
  subst hx; subst hy; rfl

theorem GejRep.of_inf {b : F} {a : Gej F} (h : a.infinity = true) : GejRep b a 0 := by
  simp [GejRep, h]

theorem GejRep.inf_iff {b : F} {a : Gej F} {P} (h : GejRep b a P) : a.infinity = true ↔ P = 0 := by
  unfold GejRep at h
  split at h
  · simp_all
  · obtain ⟨_, _, rfl⟩ := h
    simp_all

theorem GeRep.inf_iff {b : F} {a : Ge F} {P} (h : GeRep b a P) : a.infinity = true ↔ P = 0 := by
  unfold GeRep at h
  split at h
  · simp_all
  · obtain ⟨_, rfl⟩ := h
    simp_all

/-- Normal form of a finite Jacobian representation. -/
theorem GejRep.elim {b : F} {a : Gej F} {P} (h : GejRep b a P) (hi : a.infinity = false) :
    ∃ x y : F, ∃ hn : (curve b).Nonsingular x y, a.z ≠ 0 ∧ a.x = x * a.z ^ 2 ∧ a.y = y * a.z ^ 3 ∧
      P = .some x y hn := by
  unfold GejRep at h
  rw [hi] at h
  obtain ⟨hz, hn, rfl⟩ := h
  refine ⟨_, _, hn, hz, ?_, ?_, rfl⟩ <;> field_simp

theorem GejRep.intro {b : F} {a : Gej F} {x y : F} {hn : (curve b).Nonsingular x y}
    (hi : a.infinity = false) (hz : a.z ≠ 0) (hx : a.x = x * a.z ^ 2) (hy : a.y = y * a.z ^ 3) :
    GejRep b a (.some x y hn) := by
  unfold GejRep
  rw [hi]
  have e1 : x = a.x / a.z ^ 2 := by rw [hx]; field_simp
  have e2 : y = a.y / a.z ^ 3 := by rw [hy]; field_simp
  subst e1; subst e2
  exact ⟨hz, hn, rfl⟩

theorem GeRep.elim {b : F} {a : Ge F} {P} (h : GeRep b a P) (hi : a.infinity = false) :
    ∃ hn : (curve b).Nonsingular a.x a.y, P = .some a.x a.y hn := by
  unfold GeRep at h
  rw [hi] at h
  simpa using h

theorem GeRep.intro {b : F} {a : Ge F} {x y : F} {hn : (curve b).Nonsingular x y}
    (hi : a.infinity = false) (hx : a.x = x) (hy : a.y = y) :
    GeRep b a (.some x y hn) := by
  unfold GeRep
  rw [hi]
  subst hx; subst hy
  exact ⟨hn, rfl⟩

theorem GejRep.unique {b : F} {a : Gej F} {P Q} (h : GejRep b a P) (h' : GejRep b a Q) : P = Q := by
  unfold GejRep at h h'
  split at h
  · simp_all
  · rename_i hh
    rw [if_neg hh] at h'
    obtain ⟨_, _, rfl⟩ := h
    obtain ⟨_, _, rfl⟩ := h'
    rfl

theorem GeRep.unique {b : F} {a : Ge F} {P Q} (h : GeRep b a P) (h' : GeRep b a Q) : P = Q := by
  unfold GeRep at h h'
  split at h
  · simp_all
  · rename_i hh
    rw [if_neg hh] at h'
    obtain ⟨_, rfl⟩ := h
    obtain ⟨_, rfl⟩ := h'
    rfl
end

/-- Affine addition on `y² = x³ + b`, distinct abscissae. -/
theorem add_some_X_ne {b x₁ y₁ x₂ y₂ : F} {h₁ : (curve b).Nonsingular x₁ y₁}
    {h₂ : (curve b).Nonsingular x₂ y₂} (hx : x₁ ≠ x₂) {x₃ y₃ : F}
    (e1 : x₃ = ((y₁ - y₂) / (x₁ - x₂)) ^ 2 - x₁ - x₂)
    (e2 : y₃ = -((y₁ - y₂) / (x₁ - x₂) * (x₃ - x₁) + y₁)) :
    ∃ h : (curve b).Nonsingular x₃ y₃, (.some x₁ y₁ h₁ + .some x₂ y₂ h₂ : (curve b).Point) =
      .some x₃ y₃ h := by
  have hn := Affine.nonsingular_add h₁ h₂ (fun hxy => hx hxy.1)
  have ex : (curve b).addX x₁ x₂ ((curve b).slope x₁ x₂ y₁ y₂) = x₃ := by
    rw [Affine.slope_of_X_ne hx, e1]; simp [curve]
  have ey : (curve b).addY x₁ x₂ y₁ ((curve b).slope x₁ x₂ y₁ y₂) = y₃ := by
    rw [e2, ← ex, Affine.slope_of_X_ne hx]
    simp [curve, Affine.addY]
  refine ⟨by rw [← ex, ← ey]; exact hn, ?_⟩
  rw [Affine.Point.add_of_X_ne hx]
  exact some_eq_some ex ey

/-- Affine doubling on `y² = x³ + b`. -/
theorem add_some_self {b x₁ y₁ : F} (hb : NoTwoTorsion b) {h₁ : (curve b).Nonsingular x₁ y₁}
    {x₃ y₃ : F} (e1 : x₃ = (3 * x₁ ^ 2 / (2 * y₁)) ^ 2 - x₁ - x₁)
    (e2 : y₃ = -(3 * x₁ ^ 2 / (2 * y₁) * (x₃ - x₁) + y₁)) :
    ∃ h : (curve b).Nonsingular x₃ y₃, (.some x₁ y₁ h₁ + .some x₁ y₁ h₁ : (curve b).Point) =
      .some x₃ y₃ h := by
  have hy0 := hb.y_ne (nonsingular_eq h₁)
  have hy : y₁ ≠ (curve b).negY x₁ y₁ := by
    simp only [Affine.negY, curve, zero_mul, sub_zero]
    intro hh
    have : 2 * y₁ = 0 := by linear_combination hh
    rcases mul_eq_zero.1 this with h | h
    · exact hb.two_ne h
    · exact hy0 h
  have es : (curve b).slope x₁ x₁ y₁ y₁ = 3 * x₁ ^ 2 / (2 * y₁) := by
    rw [Affine.slope_of_Y_ne rfl hy]
    simp [curve, two_mul]
  have hn := Affine.nonsingular_add h₁ h₁ (fun hxy => hy hxy.2)
  have ex : (curve b).addX x₁ x₁ ((curve b).slope x₁ x₁ y₁ y₁) = x₃ := by
    rw [es, e1]; simp [curve]
  have ey : (curve b).addY x₁ x₁ y₁ ((curve b).slope x₁ x₁ y₁ y₁) = y₃ := by
    rw [e2, ← ex, es]
    simp [curve, Affine.addY]
  refine ⟨by rw [← ex, ← ey]; exact hn, ?_⟩
  rw [Affine.Point.add_self_of_Y_ne hy]
  exact some_eq_some ex ey

/-- Opposite points add up to zero. -/
theorem add_some_neg {b x y y' : F} {h₁ : (curve b).Nonsingular x y}
    {h₂ : (curve b).Nonsingular x y'} (hy : y = -y') :
    (.some x y h₁ + .some x y' h₂ : (curve b).Point) = 0 :=
  Affine.Point.add_of_Y_eq rfl (by simp [curve, hy])

omit [DecidableEq F] in
theorem neg_some {b x y : F} {h : (curve b).Nonsingular x y} :
    ∃ h' : (curve b).Nonsingular x (-y), (-.some x y h : (curve b).Point) = .some x (-y) h' := by
  have e : (curve b).negY x y = -y := by simp [curve]
  refine ⟨by rw [← e]; exact (Affine.nonsingular_neg x y).2 h, ?_⟩
  rw [Affine.Point.neg_some]
  exact some_eq_some rfl e

omit [DecidableEq F] in
/-- Two points with the same abscissa are equal or opposite. -/
theorem y_eq_or_neg {b x y y' : F} (h₁ : (curve b).Nonsingular x y)
    (h₂ : (curve b).Nonsingular x y') : y = y' ∨ y = -y' := by
  have := Affine.Y_eq_of_X_eq h₁.1 h₂.1 rfl
  simpa [curve] using this

/-! ### Conversions -/

theorem gejInfinity_rep (b : F) : GejRep b gejInfinity 0 := by simp [GejRep, gejInfinity]
theorem geInfinity_rep (b : F) : GeRep b geInfinity 0 := by simp [GeRep, geInfinity]

theorem gejSetGe_rep {b : F} {a : Ge F} {P} (h : GeRep b a P) : GejRep b (gejSetGe a) P := by
  cases hi : a.infinity
  · obtain ⟨hn, rfl⟩ := h.elim hi
    apply GejRep.intro <;> simp [gejSetGe, hi, setInt]
  · obtain rfl := h.inf_iff.1 hi
    exact .of_inf (by simpa [gejSetGe] using hi)

theorem geSetGej_rep {b : F} {a : Gej F} {P} (h : GejRep b a P) : GeRep b (geSetGej a) P := by
  cases hi : a.infinity
  · obtain ⟨x, y, hn, hz, hx, hy, rfl⟩ := h.elim hi
    apply GeRep.intro
    · simp [geSetGej, hi]
    · simp only [geSetGej, mul, sqr, inv, hx]; field_simp
    · simp only [geSetGej, mul, sqr, inv, hy]; field_simp
  · obtain rfl := h.inf_iff.1 hi
    simp [GeRep, geSetGej, hi]

theorem geSetGejVar_rep {b : F} {a : Gej F} {P} (h : GejRep b a P) :
    GeRep b (geSetGejVar a) P := by
  cases hi : a.infinity
  · obtain ⟨x, y, hn, hz, hx, hy, rfl⟩ := h.elim hi
    apply GeRep.intro
    · simp [geSetGejVar, hi, geSetXY]
    · simp only [geSetGejVar, hi, geSetXY, mul, sqr, invVar, hx]; field_simp; simp
    · simp only [geSetGejVar, hi, geSetXY, mul, sqr, invVar, hy]; field_simp; simp
  · obtain rfl := h.inf_iff.1 hi
    simp [GeRep, geSetGejVar, hi, geInfinity]

theorem geNeg_rep {b : F} {a : Ge F} {P} (h : GeRep b a P) : GeRep b (geNeg a) (-P) := by
  cases hi : a.infinity
  · obtain ⟨hn, rfl⟩ := h.elim hi
    obtain ⟨h', e⟩ := neg_some (h := hn)
    rw [e]
    apply GeRep.intro <;> simp [geNeg, hi, negate, normalizeWeak]
  · obtain rfl := h.inf_iff.1 hi
    simp [GeRep, geNeg, hi]

theorem gejNeg_rep {b : F} {a : Gej F} {P} (h : GejRep b a P) : GejRep b (gejNeg a) (-P) := by
  cases hi : a.infinity
  · obtain ⟨x, y, hn, hz, hx, hy, rfl⟩ := h.elim hi
    obtain ⟨h', e⟩ := neg_some (h := hn)
    rw [e]
    apply GejRep.intro <;> simp [gejNeg, hi, negate, normalizeWeak, hz, hx, hy]
  · obtain rfl := h.inf_iff.1 hi
    simp [GejRep, gejNeg, hi]

theorem gejRescale_rep {b : F} {a : Gej F} {P} (h : GejRep b a P) {s : F} (hs : s ≠ 0) :
    GejRep b (gejRescale a s) P := by
  cases hi : a.infinity
  · obtain ⟨x, y, hn, hz, hx, hy, rfl⟩ := h.elim hi
    apply GejRep.intro
    · simp [gejRescale, hi]
    · simp [gejRescale, mul, hz, hs]
    · simp only [gejRescale, mul, sqr, hx]; ring
    · simp only [gejRescale, mul, sqr, hy]; ring
  · obtain rfl := h.inf_iff.1 hi
    simp [GejRep, gejRescale, hi]

theorem gejCmov_eq (r a : Gej F) (flag : Bool) : gejCmov r a flag = if flag then a else r := by
  cases r with | mk rx ry rz ri => cases a with | mk ax ay az ai =>
  cases flag <;> cases ri <;> cases ai <;> simp [gejCmov, cmov]

/-! ### Doubling and additions -/

theorem gejDouble_rep {b : F} (hb : NoTwoTorsion b) {a : Gej F} {P} (h : GejRep b a P) :
    GejRep b (gejDouble a) (P + P) := by
  cases hi : a.infinity
  · obtain ⟨x, y, hn, hz, hx, hy, rfl⟩ := h.elim hi
    have hy0 := hb.y_ne (nonsingular_eq hn)
    have h2 := hb.two_ne
    obtain ⟨h', e⟩ := add_some_self hb (h₁ := hn) rfl rfl
    rw [e]
    apply GejRep.intro
    · simp [gejDouble, hi]
    · simp [gejDouble, mul, hy, hz, hy0]
    · simp only [gejDouble, mul, sqr, add, negate, mulInt, half, hx, hy]
      push_cast
      field_simp
      ring
    · simp only [gejDouble, mul, sqr, add, negate, mulInt, half, hx, hy]
      push_cast
      field_simp
      ring
  · obtain rfl := h.inf_iff.1 hi
    simp [GejRep, gejDouble, hi]

theorem gejDoubleVar_rep {b : F} (hb : NoTwoTorsion b) {a : Gej F} {P} (h : GejRep b a P) :
    GejRep b (gejDoubleVar a).1 (P + P) := by
  cases hi : a.infinity
  · simpa [gejDoubleVar, hi] using gejDouble_rep hb h
  · obtain rfl := h.inf_iff.1 hi
    simp [gejDoubleVar, hi, gejInfinity_rep]

/-- Core of the three variable-time additions: Jacobian addition with a common scaling. -/
theorem jac_add_core {b x₁ y₁ x₂ y₂ : F} {h₁ : (curve b).Nonsingular x₁ y₁}
    {h₂ : (curve b).Nonsingular x₂ y₂} {k u1 h i s1 rz : F} (hk : k ≠ 0) (hx : x₁ ≠ x₂)
    (e1 : u1 = x₁ * k ^ 2) (e2 : h = (x₂ - x₁) * k ^ 2) (e3 : i = (y₁ - y₂) * k ^ 3)
    (e4 : s1 = y₁ * k ^ 3) (e5 : rz = k * h) :
    GejRep b { x := i * i + -(h * h) * h + u1 * -(h * h) + u1 * -(h * h),
               y := (u1 * -(h * h) + (i * i + -(h * h) * h + u1 * -(h * h) + u1 * -(h * h))) * i +
                    -(h * h) * h * s1,
               z := rz, infinity := false }
      (.some x₁ y₁ h₁ + .some x₂ y₂ h₂) := by
  obtain ⟨h', e⟩ := add_some_X_ne (h₁ := h₁) (h₂ := h₂) hx rfl rfl
  rw [e]
  have hd : x₁ - x₂ ≠ 0 := sub_ne_zero.2 hx
  have hd' : x₂ - x₁ ≠ 0 := sub_ne_zero.2 (Ne.symm hx)
  subst e1 e2 e3 e4 e5
  apply GejRep.intro
  · rfl
  · simp [hk, hd']
  · simp only
    field_simp
    ring
  · simp only
    field_simp
    ring

theorem gejAddVar_rep {b : F} (hb : NoTwoTorsion b) {a c : Gej F} {P Q} (ha : GejRep b a P)
    (hc : GejRep b c Q) : GejRep b (gejAddVar a c).1 (P + Q) := by
  cases hi : a.infinity
  swap
  · obtain rfl := ha.inf_iff.1 hi
    simpa [gejAddVar, hi] using hc
  cases hj : c.infinity
  swap
  · obtain rfl := hc.inf_iff.1 hj
    simpa [gejAddVar, hi, hj] using ha
  have ha0 := ha
  obtain ⟨x₁, y₁, hn₁, hz₁, hx₁, hy₁, rfl⟩ := ha.elim hi
  obtain ⟨x₂, y₂, hn₂, hz₂, hx₂, hy₂, rfl⟩ := hc.elim hj
  simp only [gejAddVar, hi, hj, mul, sqr, add, negate, normalizesToZero, Bool.false_eq_true,
    if_false, decide_eq_true_eq, hx₁, hx₂, hy₁, hy₂]
  have eh : -(x₁ * a.z ^ 2 * (c.z * c.z)) + x₂ * c.z ^ 2 * (a.z * a.z) =
      (x₂ - x₁) * (a.z * c.z) ^ 2 := by ring
  have ei : -(y₂ * c.z ^ 3 * (a.z * a.z) * a.z) + y₁ * a.z ^ 3 * (c.z * c.z) * c.z =
      (y₁ - y₂) * (a.z * c.z) ^ 3 := by ring
  by_cases hx : x₁ = x₂
  · subst hx
    rw [if_pos (by ring)]
    by_cases hy : y₁ = y₂
    · subst hy
      rw [if_pos (by ring)]
      exact gejDoubleVar_rep hb ha0
    · rw [if_neg]
      · rw [add_some_neg ((y_eq_or_neg hn₁ hn₂).resolve_left hy)]
        exact gejInfinity_rep b
      · rw [ei]
        simp [hz₁, hz₂, sub_ne_zero.2 hy]
  · rw [if_neg]
    · exact jac_add_core (k := a.z * c.z) (mul_ne_zero hz₁ hz₂) hx (by ring) eh ei (by ring)
        (by ring)
    · rw [eh]
      simp [hz₁, hz₂, sub_ne_zero.2 (Ne.symm hx)]

theorem gejAddGeVar_rep {b : F} (hb : NoTwoTorsion b) {a : Gej F} {c : Ge F} {P Q}
    (ha : GejRep b a P) (hc : GeRep b c Q) : GejRep b (gejAddGeVar a c).1 (P + Q) := by
  cases hi : a.infinity
  swap
  · obtain rfl := ha.inf_iff.1 hi
    simpa [gejAddGeVar, hi] using gejSetGe_rep hc
  cases hj : c.infinity
  swap
  · obtain rfl := hc.inf_iff.1 hj
    simpa [gejAddGeVar, hi, hj] using ha
  have ha0 := ha
  obtain ⟨x₁, y₁, hn₁, hz₁, hx₁, hy₁, rfl⟩ := ha.elim hi
  obtain ⟨hn₂, rfl⟩ := hc.elim hj
  simp only [gejAddGeVar, hi, hj, mul, sqr, add, negate, normalizesToZero, Bool.false_eq_true,
    if_false, decide_eq_true_eq, hx₁, hy₁]
  have eh : -(x₁ * a.z ^ 2) + c.x * (a.z * a.z) = (c.x - x₁) * a.z ^ 2 := by ring
  have ei : -(c.y * (a.z * a.z) * a.z) + y₁ * a.z ^ 3 = (y₁ - c.y) * a.z ^ 3 := by ring
  by_cases hx : x₁ = c.x
  · subst hx
    rw [if_pos (by ring)]
    by_cases hy : y₁ = c.y
    · subst hy
      rw [if_pos (by ring)]
      exact gejDoubleVar_rep hb ha0
    · rw [if_neg]
      · rw [add_some_neg ((y_eq_or_neg hn₁ hn₂).resolve_left hy)]
        exact gejInfinity_rep b
      · rw [ei]
        simp [hz₁, sub_ne_zero.2 hy]
  · rw [if_neg]
    · exact jac_add_core (k := a.z) hz₁ hx (by ring) eh ei (by ring) (by ring)
    · rw [eh]
      simp [hz₁, sub_ne_zero.2 (Ne.symm hx)]

/-- `gejAddZinvVar` adds the point whose Jacobian coordinates are `(c.x, c.y, 1/bzinv)`. -/
theorem gejAddZinvVar_rep {b : F} (hb : NoTwoTorsion b) {a : Gej F} {c : Ge F} {bzinv : F} {P Q}
    (ha : GejRep b a P) (hz : bzinv ≠ 0)
    (hc : GejRep b { x := c.x, y := c.y, z := bzinv⁻¹, infinity := c.infinity } Q) :
    GejRep b (gejAddZinvVar a c bzinv) (P + Q) := by
  cases hi : a.infinity
  swap
  · obtain rfl := ha.inf_iff.1 hi
    cases hj : c.infinity
    swap
    · obtain rfl := hc.inf_iff.1 hj
      simp [gejAddZinvVar, hi, hj, GejRep]
    obtain ⟨x₂, y₂, hn₂, hz₂, hx₂, hy₂, rfl⟩ := hc.elim hj
    simp only at hx₂ hy₂
    rw [zero_add]
    apply GejRep.intro
    · simp [gejAddZinvVar, hi, hj]
    · simp [gejAddZinvVar, hi, setInt]
    · simp only [gejAddZinvVar, hi, if_true, mul, sqr, setInt, hx₂]
      field_simp
      simp
    · simp only [gejAddZinvVar, hi, if_true, mul, sqr, setInt, hy₂]
      field_simp
      simp
  cases hj : c.infinity
  swap
  · obtain rfl := hc.inf_iff.1 hj
    simpa [gejAddZinvVar, hi, hj] using ha
  have ha0 := ha
  obtain ⟨x₁, y₁, hn₁, hz₁, hx₁, hy₁, rfl⟩ := ha.elim hi
  obtain ⟨x₂, y₂, hn₂, hz₂, hx₂, hy₂, rfl⟩ := hc.elim hj
  simp only at hx₂ hy₂
  simp only [gejAddZinvVar, hi, hj, mul, sqr, add, negate, normalizesToZero, Bool.false_eq_true,
    if_false, decide_eq_true_eq, hx₁, hy₁, hx₂, hy₂]
  have eh : -(x₁ * a.z ^ 2) + x₂ * bzinv⁻¹ ^ 2 * (a.z * bzinv * (a.z * bzinv)) =
      (x₂ - x₁) * a.z ^ 2 := by field_simp; ring
  have ei : -(y₂ * bzinv⁻¹ ^ 3 * (a.z * bzinv * (a.z * bzinv)) * (a.z * bzinv)) +
      y₁ * a.z ^ 3 = (y₁ - y₂) * a.z ^ 3 := by field_simp; ring
  by_cases hx : x₁ = x₂
  · subst hx
    rw [if_pos (by rw [eh]; ring)]
    by_cases hy : y₁ = y₂
    · subst hy
      rw [if_pos (by rw [ei]; ring)]
      exact gejDoubleVar_rep hb ha0
    · rw [if_neg]
      · rw [add_some_neg ((y_eq_or_neg hn₁ hn₂).resolve_left hy)]
        exact gejInfinity_rep b
      · rw [ei]
        simp [hz₁, sub_ne_zero.2 hy]
  · rw [if_neg]
    · exact jac_add_core (k := a.z) hz₁ hx (by ring) eh ei (by ring) (by ring)
    · rw [eh]
      simp [hz₁, sub_ne_zero.2 (Ne.symm hx)]

/-- The branch-free addition, for a finite second operand. -/
theorem gejAddGe_rep {b : F} (hb : NoTwoTorsion b) {a : Gej F} {c : Ge F} {P Q}
    (ha : GejRep b a P) (hc : GeRep b c Q) (hj : c.infinity = false) :
    GejRep b (gejAddGe a c) (P + Q) := by
  obtain ⟨hn₂, rfl⟩ := hc.elim hj
  cases hi : a.infinity
  swap
  · obtain rfl := ha.inf_iff.1 hi
    rw [zero_add]
    apply GejRep.intro <;> simp [gejAddGe, hi, cmov, setInt, normalizesToZero]
  obtain ⟨x₁, y₁, hn₁, hz₁, hx₁, hy₁, rfl⟩ := ha.elim hi
  have h2 := hb.two_ne
  have eq₁ := nonsingular_eq hn₁
  have eq₂ := nonsingular_eq hn₂
  have em : a.y + c.y * (a.z * a.z) * a.z = (y₁ + c.y) * a.z ^ 3 := by rw [hy₁]; ring
  by_cases hm : y₁ + c.y = 0
  · -- degenerate
    have hm' : a.y + c.y * (a.z * a.z) * a.z = 0 := by rw [em, hm]; ring
    have hyc : c.y = -y₁ := by linear_combination hm
    by_cases hx : x₁ = c.x
    · rw [show (.some x₁ y₁ hn₁ + .some c.x c.y hn₂ : (curve b).Point) = 0 by
        have hn₃ : (curve b).Nonsingular x₁ c.y := by rw [hx]; exact hn₂
        have := add_some_neg (h₁ := hn₁) (h₂ := hn₃) (by rw [hyc]; ring)
        rw [← this]
        congr 1
        exact some_eq_some hx.symm rfl]
      apply GejRep.of_inf
      simp [gejAddGe, hi, cmov, normalizesToZero, mul, sqr, add, negate, hm', hx₁, hx]
      right
      ring
    · obtain ⟨h', e⟩ := add_some_X_ne (h₁ := hn₁) (h₂ := hn₂) hx rfl rfl
      rw [e]
      have hd : x₁ - c.x ≠ 0 := sub_ne_zero.2 hx
      have ez : -(c.x * (a.z * a.z)) + a.x = (x₁ - c.x) * a.z ^ 2 := by rw [hx₁]; ring
      apply GejRep.intro
      · simp [gejAddGe, hi, cmov, normalizesToZero, mul, sqr, add, negate, hm', ez, hz₁, hd]
      · simp [gejAddGe, hi, cmov, normalizesToZero, mul, sqr, add, negate, hm', ez, hz₁, hd]
      · simp [gejAddGe, hi, cmov, normalizesToZero, mul, sqr, add, negate, hm', ez, mulInt]
        rw [hx₁, hy₁, hyc]
        field_simp
        ring
      · simp [gejAddGe, hi, cmov, normalizesToZero, mul, sqr, add, negate, hm', ez, mulInt, half]
        rw [hx₁, hy₁, hyc]
        field_simp
        ring
  · have hm' : a.y + c.y * (a.z * a.z) * a.z ≠ 0 := by rw [em]; simp [hm, hz₁]
    by_cases hx : x₁ = c.x
    · -- doubling
      subst hx
      have hy : y₁ = c.y := by
        rcases y_eq_or_neg hn₁ hn₂ with h | h
        · exact h
        · exact absurd (by rw [h]; ring) hm
      have hy0 := hb.y_ne eq₁
      rw [show (.some c.x c.y hn₂ : (curve b).Point) = .some c.x y₁ hn₁ from
        some_eq_some rfl hy.symm]
      obtain ⟨h', e⟩ := add_some_self hb (h₁ := hn₁) rfl rfl
      rw [e]
      apply GejRep.intro
      · simp [gejAddGe, hi, cmov, normalizesToZero, mul, sqr, add, hm', hz₁]
      · simp [gejAddGe, hi, cmov, normalizesToZero, mul, sqr, add, hm', hz₁]
      · simp only [gejAddGe, hi, cmov, normalizesToZero, mul, sqr, add, negate, hm', mulInt,
          hx₁, decide_false, Bool.not_false, if_true, Bool.false_eq_true, if_false]
        rw [em, ← hy]
        field_simp
        ring
      · simp only [gejAddGe, hi, cmov, normalizesToZero, mul, sqr, add, negate, hm', mulInt,
          hx₁, decide_false, Bool.not_false, if_true, Bool.false_eq_true, if_false, half]
        rw [em, ← hy]
        push_cast
        field_simp
        ring
    · have hd : x₁ - c.x ≠ 0 := sub_ne_zero.2 hx
      -- both expressions of the slope agree
      have es : (y₁ - c.y) / (x₁ - c.x) = (x₁ ^ 2 + x₁ * c.x + c.x ^ 2) / (y₁ + c.y) := by
        field_simp
        linear_combination eq₁ - eq₂
      have ey : y₁ - c.y = (x₁ ^ 2 + x₁ * c.x + c.x ^ 2) / (y₁ + c.y) * (x₁ - c.x) := by
        rw [← es]; field_simp
      obtain ⟨h', e⟩ := add_some_X_ne (h₁ := hn₁) (h₂ := hn₂) hx (by rw [es]) (by rw [es])
      rw [e]
      apply GejRep.intro
      · simp [gejAddGe, hi, cmov, normalizesToZero, mul, sqr, add, hm', hz₁]
      · simp [gejAddGe, hi, cmov, normalizesToZero, mul, sqr, add, hm', hz₁]
      · simp only [gejAddGe, hi, cmov, normalizesToZero, mul, sqr, add, negate, hm', mulInt,
          hx₁, decide_false, Bool.not_false, if_true, Bool.false_eq_true, if_false]
        rw [em]
        field_simp
        ring
      · simp only [gejAddGe, hi, cmov, normalizesToZero, mul, sqr, add, negate, hm', mulInt,
          hx₁, decide_false, Bool.not_false, if_true, Bool.false_eq_true, if_false, half]
        rw [em]
        push_cast
        have e3 : (y₁ - c.y) * (y₁ + c.y) = (x₁ ^ 2 + x₁ * c.x + c.x ^ 2) * (x₁ - c.x) := by
          linear_combination eq₁ - eq₂
        field_simp
        linear_combination (y₁ + c.y) ^ 2 * e3

end Secp
