import Verif.Model.GroupX
import Verif.Proof.Order
import Mathlib.NumberTheory.LegendreSymbol.Basic

/-! # `secp256k1_fe_sqrt` and the functions built on it -/

namespace Secp
open WeierstrassCurve Model FeOps

theorem sqrN_eq {F : Type} [Field F] [DecidableEq F] (a : F) (k : ℕ) : sqrN a k = a ^ 2 ^ k := by
  induction k with
  | zero => simp [sqrN]
  | succ k ih => simp only [sqrN, ih, sqr]; rw [← pow_add, pow_succ]; congr 1; ring

theorem sqr_mul_pow {F : Type} [Field F] [DecidableEq F] (a : F) (e f k : ℕ) :
    mul (sqrN (a ^ e) k) (a ^ f) = a ^ (e * 2 ^ k + f) := by
  rw [sqrN_eq, ← pow_mul]; simp only [mul]; rw [← pow_add]

theorem ones {F : Type} [Field F] [DecidableEq F] (a : F) (i j m : ℕ) (h : m = i + j) :
    mul (sqrN (a ^ (2 ^ i - 1)) j) (a ^ (2 ^ j - 1)) = a ^ (2 ^ m - 1) := by
  rw [sqr_mul_pow]
  congr 1
  subst h
  have h1 := Nat.one_le_two_pow (n := i)
  have h2 := Nat.one_le_two_pow (n := j)
  rw [pow_add]
  obtain ⟨u, hu⟩ := Nat.exists_eq_add_of_le h1
  obtain ⟨v, hv⟩ := Nat.exists_eq_add_of_le h2
  rw [hu, hv]
  have : (1 + u) * (1 + v) = 1 + u + v + u * v := by ring
  rw [this]
  have : (1 + u - 1) * (1 + v) = u + u * v := by rw [Nat.add_sub_cancel_left]; ring
  rw [this]
  omega

theorem sqrt_val {F : Type} [Field F] [DecidableEq F] (a : F) :
    (sqrt a).1 = a ^ ((p + 1) / 4) := by
  have e2 : mul (sqr a) a = a ^ (2 ^ 2 - 1) := by
    simp only [mul, sqr]; rw [show 2 ^ 2 - 1 = 3 from rfl]; ring
  have e3 : mul (sqr (a ^ (2 ^ 2 - 1))) a = a ^ (2 ^ 3 - 1) := by
    simp only [mul, sqr]; rw [show 2 ^ 2 - 1 = 3 from rfl, show 2 ^ 3 - 1 = 7 from rfl]; ring
  have fin : ∀ x : F, ∀ e : ℕ, x = a ^ e → sqr (sqr x) = a ^ (e * 4) := by
    rintro x e rfl
    simp only [sqr]; rw [← pow_add, ← pow_add]; congr 1; ring
  unfold sqrt
  simp only [e2, e3]
  rw [ones a 3 3 6 rfl, ones a 6 3 9 rfl, ones a 9 2 11 rfl, ones a 11 11 22 rfl,
    ones a 22 22 44 rfl, ones a 44 44 88 rfl, ones a 88 88 176 rfl, ones a 176 44 220 rfl,
    ones a 220 3 223 rfl, sqr_mul_pow, sqr_mul_pow, fin _ _ rfl]
  congr 1
  decide +kernel

theorem p_mod_four : p % 4 = 3 := by decide +kernel

theorem sqrt_snd (a : Fp) : (sqrt a).2 = true ↔ IsSquare a := by
  have h1 : (sqrt a).2 = equal (sqr (sqrt a).1) a := rfl
  have h2 : equal (sqr (sqrt a).1) a = true ↔ (sqrt a).1 ^ 2 = a := by
    simp only [equal, normalizesToZero, add, negate, sqr, decide_eq_true_eq]
    rw [neg_add_eq_zero, sq]
  rw [h1, h2, sqrt_val, ← pow_mul]
  have hp := p_mod_four
  have e : (p + 1) / 4 * 2 = p / 2 + 1 := by omega
  rw [e, pow_succ]
  by_cases ha : a = 0
  · subst ha; simp
  · rw [ZMod.euler_criterion p ha]
    constructor
    · intro h
      exact mul_right_cancel₀ ha (by rw [h, one_mul])
    · intro h; rw [h, one_mul]

theorem sqrt_sq {a : Fp} (h : IsSquare a) : (sqrt a).1 ^ 2 = a := by
  have h1 := (sqrt_snd a).2 h
  have h2 : (sqrt a).2 = equal (sqr (sqrt a).1) a := rfl
  rw [h2] at h1
  simp only [equal, normalizesToZero, add, negate, sqr, decide_eq_true_eq] at h1
  rw [neg_add_eq_zero, ← sq] at h1
  exact h1

theorem feIsSquareVar_iff (a : Fp) : feIsSquareVar a = true ↔ IsSquare a := by
  unfold feIsSquareVar
  split
  · rename_i h
    have : a = 0 := by simpa [feIsZero] using h
    subst this; simp
  · exact sqrt_snd a

theorem geXOnCurveVar_iff (x : Fp) : geXOnCurveVar x = true ↔ ∃ y : Fp, y ^ 2 = x ^ 3 + 7 := by
  unfold geXOnCurveVar
  simp only
  rw [feIsSquareVar_iff, isSquare_iff_exists_sq]
  simp only [mul, sqr, addInt, curveB]
  constructor
  · rintro ⟨y, h⟩; exact ⟨y, by rw [← h]; push_cast; ring⟩
  · rintro ⟨y, h⟩; exact ⟨y, by rw [h]; push_cast; ring⟩

theorem geXFracOnCurveVar_iff (xn : Fp) {xd : Fp} (hd : xd ≠ 0) :
    geXFracOnCurveVar xn xd = true ↔ ∃ y : Fp, y ^ 2 = (xn / xd) ^ 3 + 7 := by
  unfold geXFracOnCurveVar
  simp only
  rw [feIsSquareVar_iff, isSquare_iff_exists_sq]
  simp only [mul, sqr, mulInt, add, curveB]
  constructor
  · rintro ⟨y, h⟩
    refine ⟨y / xd ^ 2, ?_⟩
    rw [div_pow, ← h]
    field_simp
    push_cast; ring
  · rintro ⟨y, h⟩
    refine ⟨y * xd ^ 2, ?_⟩
    rw [mul_pow, h]
    field_simp
    push_cast; ring

theorem neg_val_odd {y : Fp} (h : y ≠ 0) : (-y).val % 2 = 1 - y.val % 2 := by
  have hv : y.val ≠ 0 := by simpa using h
  have hl := ZMod.val_lt y
  haveI : NeZero y := ⟨h⟩
  rw [ZMod.val_neg_of_ne_zero]
  have : p % 2 = 1 := by have := p_mod_four; omega
  omega

/-- `secp256k1_ge_set_xo_var` finds the point with the given x coordinate and parity, if any. -/
theorem geSetXoVar_spec (x : Fp) (odd : Bool) :
    ((geSetXoVar x odd).2 = true ↔ ∃ y : Fp, y ^ 2 = x ^ 3 + 7) ∧
    ((geSetXoVar x odd).2 = true → (geSetXoVar x odd).1.x = x ∧
      (geSetXoVar x odd).1.infinity = false ∧
      (geSetXoVar x odd).1.y ^ 2 = x ^ 3 + 7 ∧
      ((geSetXoVar x odd).1.y.val % 2 = 1 ↔ odd = true)) := by
  have e : addInt (mul x (sqr x)) curveB = x ^ 3 + 7 := by
    simp only [mul, sqr, addInt, curveB]; push_cast; ring
  have h1 : (geSetXoVar x odd).2 = true ↔ IsSquare (x ^ 3 + 7) := by
    unfold geSetXoVar; simp only; rw [e, sqrt_snd]
  refine ⟨?_, fun h => ?_⟩
  · rw [h1, isSquare_iff_exists_sq]
    constructor <;> rintro ⟨y, hy⟩ <;> exact ⟨y, hy.symm⟩
  · have hs := sqrt_sq (h1.1 h)
    refine ⟨rfl, rfl, ?_⟩
    unfold geSetXoVar
    simp only [e, FeOps.normalize, negate]
    generalize (sqrt (x ^ 3 + 7)).1 = y at *
    have hy : y ≠ 0 := neg7_not_cube.y_ne hs
    have hn := neg_val_odd hy
    unfold feIsOdd
    split
    · rename_i hc
      refine ⟨by rw [neg_pow_two, hs], ?_⟩
      cases odd <;> simp at hc ⊢ <;> omega
    · rename_i hc
      refine ⟨hs, ?_⟩
      cases odd <;> simp at hc ⊢ <;> omega

/-- A point is determined by its x coordinate and the parity of its y coordinate. -/
theorem y_eq_of_parity {x y y' : Fp} (h : y ^ 2 = x ^ 3 + 7) (h' : y' ^ 2 = x ^ 3 + 7)
    (hp : y.val % 2 = y'.val % 2) : y = y' := by
  have hy := neg7_not_cube.y_ne h
  have : (y - y') * (y + y') = 0 := by linear_combination h - h'
  rcases mul_eq_zero.1 this with h0 | h0
  · exact sub_eq_zero.1 h0
  · have e : y' = -y := by linear_combination h0
    have := neg_val_odd hy
    rw [← e] at this
    omega

end Secp
