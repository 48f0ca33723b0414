import Verif.Model.Ellswift
import Verif.Spec.Ellswift
import Verif.Proof.Parse
import Mathlib.NumberTheory.LegendreSymbol.QuadraticChar.Basic

/-! # The XSwiftEC map -/

namespace Secp
open WeierstrassCurve Model Spec FeOps

theorem sqrtMinus3_sq : sqrtMinus3 ^ 2 = -3 := by decide +kernel

theorem ellC1_eq : 2 * ellC1 = sqrtMinus3 - 1 := by decide +kernel

theorem ellC2_eq : 2 * ellC2 = -sqrtMinus3 - 1 := by decide +kernel

theorem ellC3_eq : ellC3 = -ellC1 := by decide +kernel

theorem ellC4_eq : ellC4 = -ellC2 := by decide +kernel

theorem three_ne_zero_Fp : (3 : Fp) ≠ 0 := by decide +kernel

theorem sqrtMinus3_ne : sqrtMinus3 ≠ 0 := by
  intro h
  have := sqrtMinus3_sq
  rw [h] at this
  exact three_ne_zero_Fp (by linear_combination this)

theorem ellC_sum : ellC1 + ellC2 = -1 := by decide +kernel

theorem ellC_mul : ellC1 * ellC2 = 1 := by decide +kernel

theorem onCurve_iff (x : Fp) : OnCurve x ↔ IsSquare (x ^ 3 + 7) := by
  rw [OnCurve, isSquare_iff_exists_sq]
  constructor <;> rintro ⟨y, h⟩ <;> exact ⟨y, h.symm⟩

/-- Of three field elements whose product is a nonzero square, one is a square. -/
theorem square_of_three {a b c : Fp} (h : IsSquare (a * b * c)) (h0 : a * b * c ≠ 0) :
    IsSquare a ∨ IsSquare b ∨ IsSquare c := by
  by_contra hn
  push Not at hn
  obtain ⟨ha, hb, hc⟩ := hn
  have e := (quadraticChar_one_iff_isSquare h0).2 h
  rw [map_mul, map_mul, quadraticChar_neg_one_iff_not_isSquare.2 ha,
    quadraticChar_neg_one_iff_not_isSquare.2 hb, quadraticChar_neg_one_iff_not_isSquare.2 hc] at e
  norm_num at e

/-- The identity behind the map. -/
theorem swift_identity {u x w h : Fp} (hh : h = u ^ 2 + u * x + x ^ 2) (hw : h * w ^ 2 = -(u ^ 3 + 7)) :
    (x ^ 3 + 7) * ((-u - x) ^ 3 + 7) * ((u + w ^ 2) ^ 3 + 7) =
      (h * w * (x - u - w ^ 2) * (-2 * u - x - w ^ 2)) ^ 2 := by
  have e7 : (7 : Fp) = -u ^ 3 - h * w ^ 2 := by linear_combination hw
  have f1 : x ^ 3 + 7 = h * (x - u - w ^ 2) := by rw [e7, hh]; ring
  have f2 : (-u - x) ^ 3 + 7 = h * (-2 * u - x - w ^ 2) := by rw [e7, hh]; ring
  have f3 : (u + w ^ 2) ^ 3 + 7 = w ^ 2 * ((x - u - w ^ 2) * (-2 * u - x - w ^ 2)) := by
    rw [e7, hh]; ring
  rw [f1, f2, f3]; ring

theorem cubic_ne (x : Fp) : x ^ 3 + 7 ≠ 0 := neg7_not_cube.no_root x

/-- At least one of the three candidates is on the curve. -/
theorem swift_valid {u x w h : Fp} (hh : h = u ^ 2 + u * x + x ^ 2) (hw : h * w ^ 2 = -(u ^ 3 + 7)) :
    OnCurve x ∨ OnCurve (-u - x) ∨ OnCurve (u + w ^ 2) := by
  simp only [onCurve_iff]
  exact square_of_three (by rw [swift_identity hh hw]; exact IsSquare.sq _)
    (mul_ne_zero (mul_ne_zero (cubic_ne _) (cubic_ne _)) (cubic_ne _))

theorem square_mul_iff {a b : Fp} (ha : IsSquare a) (h0 : a ≠ 0) : IsSquare (a * b) ↔ IsSquare b := by
  constructor
  · rintro ⟨r, hr⟩
    obtain ⟨q, hq⟩ := ha
    have : q ≠ 0 := by rintro rfl; exact h0 (by rw [hq, zero_mul])
    exact ⟨r / q, by field_simp; rw [sq r, ← hr, hq]; ring⟩
  · exact fun hb => ha.mul hb

/-- If exactly one of `x` and `-u-x` is on the curve, the third candidate is not. -/
theorem swift_third {u x w h : Fp} (hh : h = u ^ 2 + u * x + x ^ 2) (hw : h * w ^ 2 = -(u ^ 3 + 7))
    (h1 : OnCurve x) (h2 : ¬ OnCurve (-u - x)) : ¬ OnCurve (u + w ^ 2) := by
  simp only [onCurve_iff] at *
  intro h3
  have := IsSquare.sq (h * w * (x - u - w ^ 2) * (-2 * u - x - w ^ 2))
  rw [← swift_identity hh hw, mul_assoc, square_mul_iff h1 (cubic_ne _), mul_comm,
    square_mul_iff h3 (cubic_ne _)] at this
  exact h2 this

/-! ### Decoding -/

/-- The three candidates, as the code computes them. -/
theorem cand_x3 {u t : Fp} (hu : u ≠ 0) (ht : t ≠ 0) :
    u + 4 * (((u ^ 3 + 7 - t ^ 2) / (2 * t) + t) / (sqrtMinus3 * u)) ^ 2 =
      (3 * (t ^ 2 * u ^ 2) * u - (u ^ 3 + 7 + t ^ 2) ^ 2) / (3 * (t ^ 2 * u ^ 2)) := by
  have h3 := three_ne_zero_Fp
  have h2 := two_ne_zero_Fp
  have e : ((u ^ 3 + 7 - t ^ 2) / (2 * t) + t) = (u ^ 3 + 7 + t ^ 2) / (2 * t) := by
    field_simp; ring
  rw [e, div_pow, div_pow, mul_pow sqrtMinus3, sqrtMinus3_sq]
  field_simp
  ring

theorem cand_x2 {u t : Fp} (hu : u ≠ 0) (ht : t ≠ 0) (hp : u ^ 3 + 7 + t ^ 2 ≠ 0) :
    (-((u ^ 3 + 7 - t ^ 2) / (2 * t)) / (((u ^ 3 + 7 - t ^ 2) / (2 * t) + t) / (sqrtMinus3 * u)) - u) / 2 =
      (u * (ellC1 * t ^ 2 + ellC2 * (u ^ 3 + 7))) / (u ^ 3 + 7 + t ^ 2) := by
  have h2 := two_ne_zero_Fp
  have h3 := sqrtMinus3_ne
  have e : ((u ^ 3 + 7 - t ^ 2) / (2 * t) + t) = (u ^ 3 + 7 + t ^ 2) / (2 * t) := by
    field_simp; ring
  rw [e]
  generalize hg : u ^ 3 + 7 = g at *
  field_simp
  linear_combination (-t ^ 2) * ellC1_eq + (-g) * ellC2_eq

theorem cand_x1 {u t : Fp} (hu : u ≠ 0) (ht : t ≠ 0) (hp : u ^ 3 + 7 + t ^ 2 ≠ 0) :
    (((u ^ 3 + 7 - t ^ 2) / (2 * t)) / (((u ^ 3 + 7 - t ^ 2) / (2 * t) + t) / (sqrtMinus3 * u)) - u) / 2 =
      -u - (u * (ellC1 * t ^ 2 + ellC2 * (u ^ 3 + 7))) / (u ^ 3 + 7 + t ^ 2) := by
  have h2 := two_ne_zero_Fp
  rw [← cand_x2 hu ht hp, neg_div]
  field_simp
  ring

/-- The candidates satisfy the hypotheses of `swift_identity`. -/
theorem cand_spec {u t : Fp} (hu : u ≠ 0) (ht : t ≠ 0) (hp : u ^ 3 + 7 + t ^ 2 ≠ 0) :
    let x2 := (u * (ellC1 * t ^ 2 + ellC2 * (u ^ 3 + 7))) / (u ^ 3 + 7 + t ^ 2)
    let w := (u ^ 3 + 7 + t ^ 2) / (sqrtMinus3 * t * u)
    (u ^ 2 + u * x2 + x2 ^ 2) * w ^ 2 = -(u ^ 3 + 7) ∧
      (3 * (t ^ 2 * u ^ 2) * u - (u ^ 3 + 7 + t ^ 2) ^ 2) / (3 * (t ^ 2 * u ^ 2)) = u + w ^ 2 := by
  have h3 := three_ne_zero_Fp
  intro x2 w
  have ew : w ^ 2 = -(u ^ 3 + 7 + t ^ 2) ^ 2 / (3 * (t ^ 2 * u ^ 2)) := by
    change ((u ^ 3 + 7 + t ^ 2) / (sqrtMinus3 * t * u)) ^ 2 = _
    rw [div_pow, mul_pow, mul_pow, sqrtMinus3_sq]
    field_simp
  have eh : u ^ 2 + u * x2 + x2 ^ 2 = (x2 - ellC1 * u) * (x2 - ellC2 * u) := by
    linear_combination (u * x2) * ellC_sum - u ^ 2 * ellC_mul
  have e1 : x2 - ellC1 * u = u * (u ^ 3 + 7) * (ellC2 - ellC1) / (u ^ 3 + 7 + t ^ 2) := by
    change (u * (ellC1 * t ^ 2 + ellC2 * (u ^ 3 + 7))) / (u ^ 3 + 7 + t ^ 2) - _ = _
    field_simp
    ring
  have e2 : x2 - ellC2 * u = u * t ^ 2 * (ellC1 - ellC2) / (u ^ 3 + 7 + t ^ 2) := by
    change (u * (ellC1 * t ^ 2 + ellC2 * (u ^ 3 + 7))) / (u ^ 3 + 7 + t ^ 2) - _ = _
    field_simp
    ring
  have e3 : (ellC1 - ellC2) ^ 2 = -3 := by decide +kernel
  constructor
  · rw [eh, e1, e2, ew]
    generalize u ^ 3 + 7 = g at *
    field_simp
    linear_combination g * e3
  · rw [ew]
    field_simp
    ring

/-- The part of `xswiftecFracVar` after the special cases. -/
def fracTail (u s : Fp) : Fp × Fp :=
  let g := u ^ 3 + 7
  let p := g + s
  let d := 3 * (s * u ^ 2)
  let n := d * u - p ^ 2
  if geXFracOnCurveVar n d then (n, d)
  else
    let n := u * (ellC1 * s + ellC2 * g)
    if geXFracOnCurveVar n p then (n, p) else (-(n + p * u), p)

theorem xswiftecFracVar_eq (u t : Fp) :
    xswiftecFracVar u t =
      (let u := if u = 0 then 1 else u
       let t := if t = 0 then 1 else t
       let t := if u ^ 3 + t ^ 2 + 7 = 0 then 2 * t else t
       fracTail u (t ^ 2)) := by
  simp only
  obtain ⟨u', hu⟩ : ∃ u', u' = if u = 0 then (1 : Fp) else u := ⟨_, rfl⟩
  obtain ⟨t', ht⟩ : ∃ t', t' = if t = 0 then (1 : Fp) else t := ⟨_, rfl⟩
  rw [← hu, ← ht]
  have e1 : (if normalizesToZero u then (setInt 1 : Fp) else u) = u' := by
    rw [hu]; by_cases h : u = 0 <;> simp [normalizesToZero, setInt, h]
  have e2 : (if normalizesToZero t then (setInt 1 : Fp) else sqr t) = t' ^ 2 := by
    rw [ht]; by_cases h : t = 0 <;> simp [normalizesToZero, setInt, h, sqr, sq]
  have e3 : addInt (mul (sqr u') u') curveB = u' ^ 3 + 7 := by
    simp only [mul, sqr, addInt, curveB]; push_cast; ring
  obtain ⟨s, hs⟩ : ∃ s, s = (if u' ^ 3 + t' ^ 2 + 7 = 0 then 2 * t' else t') ^ 2 := ⟨_, rfl⟩
  have e4 : (if normalizesToZero (add (u' ^ 3 + 7) (t' ^ 2)) then mulInt (t' ^ 2) 4 else t' ^ 2) = s := by
    have : add (u' ^ 3 + 7) (t' ^ 2) = u' ^ 3 + t' ^ 2 + 7 := by simp only [add]; ring
    rw [this, hs]
    by_cases h : u' ^ 3 + t' ^ 2 + 7 = 0
    · simp only [normalizesToZero, h, decide_true, if_true, mulInt]; push_cast; ring
    · simp only [normalizesToZero, h, decide_false, if_false, Bool.false_eq_true]
  rw [← hs]
  unfold xswiftecFracVar
  simp only [e1, e2, e3, e4]
  unfold fracTail
  simp only
  have a1 : mulInt (mul s (sqr u')) 3 = 3 * (s * u' ^ 2) := by
    simp only [mulInt, mul, sqr]; push_cast; ring
  have a2 : add (mul (3 * (s * u' ^ 2)) u') (negate (sqr (u' ^ 3 + 7 + s)) 1) =
      3 * (s * u' ^ 2) * u' - (u' ^ 3 + 7 + s) ^ 2 := by
    simp only [mul, sqr, add, negate]; ring
  have a3 : mul (add (mul ellC2 (u' ^ 3 + 7)) (mul ellC1 s)) u' =
      u' * (ellC1 * s + ellC2 * (u' ^ 3 + 7)) := by
    simp only [mul, add]; ring
  have a4 : add (u' ^ 3 + 7) s = u' ^ 3 + 7 + s := rfl
  have a5 : ∀ n : Fp, negate (add n (mul (u' ^ 3 + 7 + s) u')) 2 = -(n + (u' ^ 3 + 7 + s) * u') :=
    fun _ => rfl
  simp only [a1, a2, a3, a4, a5]

theorem fracTail_spec {u t : Fp} (hu : u ≠ 0) (ht : t ≠ 0) (hp : u ^ 3 + 7 + t ^ 2 ≠ 0) :
    let X := (u ^ 3 + 7 - t ^ 2) / (2 * t)
    let Y := (X + t) / (sqrtMinus3 * u)
    let x := firstOnCurve (u + 4 * Y ^ 2) ((-X / Y - u) / 2) ((X / Y - u) / 2)
    (fracTail u (t ^ 2)).2 ≠ 0 ∧ (fracTail u (t ^ 2)).1 / (fracTail u (t ^ 2)).2 = x ∧ OnCurve x := by
  intro X Y
  have h3 := three_ne_zero_Fp
  have c3 : u + 4 * Y ^ 2 = _ := cand_x3 hu ht
  have c2 : (-X / Y - u) / 2 = _ := cand_x2 hu ht hp
  have c1 : (X / Y - u) / 2 = _ := cand_x1 hu ht hp
  obtain ⟨w1, w2⟩ := cand_spec hu ht hp
  rw [c1, c2, c3]
  have hd : 3 * (t ^ 2 * u ^ 2) ≠ 0 :=
    mul_ne_zero h3 (mul_ne_zero (pow_ne_zero _ ht) (pow_ne_zero _ hu))
  have hv := swift_valid rfl w1
  rw [← w2] at hv
  clear c1 c2 c3 w1 w2
  intro x
  have hx : firstOnCurve _ _ _ = x := rfl
  unfold fracTail
  simp only
  unfold firstOnCurve at hx
  by_cases h1 : geXFracOnCurveVar (3 * (t ^ 2 * u ^ 2) * u - (u ^ 3 + 7 + t ^ 2) ^ 2)
      (3 * (t ^ 2 * u ^ 2)) = true
  · have o1 : OnCurve _ := (geXFracOnCurveVar_iff _ hd).1 h1
    rw [if_pos h1]
    rw [if_pos o1] at hx
    rw [← hx]
    exact ⟨hd, rfl, o1⟩
  have o1 : ¬ OnCurve _ := fun h => h1 ((geXFracOnCurveVar_iff _ hd).2 h)
  rw [if_neg h1]
  rw [if_neg o1] at hx
  by_cases h2 : geXFracOnCurveVar (u * (ellC1 * t ^ 2 + ellC2 * (u ^ 3 + 7))) (u ^ 3 + 7 + t ^ 2) = true
  · have o2 : OnCurve _ := (geXFracOnCurveVar_iff _ hp).1 h2
    rw [if_pos h2]
    rw [if_pos o2] at hx
    rw [← hx]
    exact ⟨hp, rfl, o2⟩
  have o2 : ¬ OnCurve _ := fun h => h2 ((geXFracOnCurveVar_iff _ hp).2 h)
  rw [if_neg h2]
  rw [if_neg o2] at hx
  rw [← hx]
  refine ⟨hp, ?_, ?_⟩
  · field_simp
    ring
  · rcases hv with h | h | h
    · exact absurd h o2
    · exact h
    · exact absurd h o1

/-- The special cases leave nonzero values. -/
theorem swift_fix (u t : Fp) :
    let u := if u = 0 then 1 else u
    let t := if t = 0 then 1 else t
    let t := if u ^ 3 + t ^ 2 + 7 = 0 then 2 * t else t
    u ≠ 0 ∧ t ≠ 0 ∧ u ^ 3 + 7 + t ^ 2 ≠ 0 := by
  have h3 := three_ne_zero_Fp
  have h2 := two_ne_zero_Fp
  intro u' t' t''
  have hu : u' ≠ 0 := by
    change (if u = 0 then (1 : Fp) else u) ≠ 0
    split_ifs with h
    · exact one_ne_zero
    · exact h
  have ht : t' ≠ 0 := by
    change (if t = 0 then (1 : Fp) else t) ≠ 0
    split_ifs with h
    · exact one_ne_zero
    · exact h
  refine ⟨hu, ?_⟩
  change (if u' ^ 3 + t' ^ 2 + 7 = 0 then 2 * t' else t') ≠ 0 ∧
    u' ^ 3 + 7 + (if u' ^ 3 + t' ^ 2 + 7 = 0 then 2 * t' else t') ^ 2 ≠ 0
  split_ifs with h
  · refine ⟨mul_ne_zero h2 ht, fun h' => ?_⟩
    have : 3 * t' ^ 2 = 0 := by linear_combination h' - h
    exact mul_ne_zero h3 (pow_ne_zero 2 ht) this
  · exact ⟨ht, fun h' => h (by linear_combination h')⟩

/-- The fraction that `secp256k1_ellswift_xswiftec_frac_var` returns is `XSwiftEC(u, t)`, and that is
the x coordinate of a point. -/
theorem xswiftecFracVar_spec (u t : Fp) :
    (xswiftecFracVar u t).2 ≠ 0 ∧ (xswiftecFracVar u t).1 / (xswiftecFracVar u t).2 = xswiftec u t ∧
      OnCurve (xswiftec u t) := by
  obtain ⟨h1, h2, h3⟩ := swift_fix u t
  rw [xswiftecFracVar_eq]
  exact fracTail_spec h1 h2 h3

theorem xswiftecVar_eq (u t : Fp) : xswiftecVar u t = xswiftec u t := by
  rw [← (xswiftecFracVar_spec u t).2.1, div_eq_mul_inv]
  rfl

/-- Decoding gives the point it should. -/
theorem swiftecVar_rep (u t : Fp) :
    ∃ P : Pt, P ≠ 0 ∧ ptX P = (xswiftec u t).val ∧ ptY P % 2 = t.val % 2 ∧
      GeRep 7 (swiftecVar u t) P := by
  obtain ⟨y, hy⟩ := (xswiftecFracVar_spec u t).2.2
  obtain ⟨h1, h2⟩ := geSetXoVar_spec (xswiftec u t) (feIsOdd t)
  obtain ⟨e1, e2, e3, e4⟩ := h2 (h1.2 ⟨y, hy⟩)
  obtain ⟨hn, -⟩ := exists_pt e3
  refine ⟨.some _ _ hn, (by intro h; cases h), rfl, ?_, ?_⟩
  · rw [ptY_some]
    rw [feIsOdd_iff] at e4
    omega
  · unfold swiftecVar
    rw [xswiftecVar_eq]
    exact GeRep.intro e2 e1 rfl

end Secp
