import Verif.Proof.EllswiftInv

/-! # The inverse of the XSwiftEC map reaches every preimage, exactly once -/

namespace Secp
open WeierstrassCurve Model Spec FeOps

theorem ellC_diff : ellC1 - ellC2 = sqrtMinus3 := by decide +kernel

/-- The branches with bit 1 clear. -/
theorem invVar_low {x u : Fp} {c : ℕ} (hc : c &&& 2 = 0) (t : Fp) :
    xswiftecInvVar x u c = some t ↔
      ¬ OnCurve (-u - x) ∧ IsSquare (-(u ^ 2 + u * x + x ^ 2) * (u ^ 3 + 7)) ∧
        t = xswiftecInvEnd u ((-(u ^ 2 + u * x + x ^ 2))⁻¹ * (u ^ 3 + 7)) x c := by
  unfold xswiftecInvVar
  simp only [if_pos hc]
  have e1 : negate (add (normalizeWeak x) (normalizeWeak u)) 2 = -u - x := by
    simp only [negate, add, normalizeWeak]; ring
  have e2 : add (negate (sqr (-u - x)) 1) (mul (normalizeWeak u) (normalizeWeak x)) =
      -(u ^ 2 + u * x + x ^ 2) := by
    simp only [negate, add, normalizeWeak, sqr, mul]; ring
  have e3 : addInt (mul (sqr (normalizeWeak u)) (normalizeWeak u)) curveB = u ^ 3 + 7 := by
    simp only [mul, sqr, addInt, curveB, normalizeWeak]; push_cast; ring
  rw [e1, e2, e3]
  by_cases c1 : geXOnCurveVar (-u - x) = true
  · rw [if_pos c1]
    rw [geXOnCurveVar_iff] at c1
    exact ⟨fun h => (by cases h), fun h => absurd c1 h.1⟩
  rw [if_neg c1]
  rw [geXOnCurveVar_iff] at c1
  have e4 : feIsSquareVar (mul (-(u ^ 2 + u * x + x ^ 2)) (u ^ 3 + 7)) = true ↔
      IsSquare (-(u ^ 2 + u * x + x ^ 2) * (u ^ 3 + 7)) := feIsSquareVar_iff _
  cases h : feIsSquareVar (mul (-(u ^ 2 + u * x + x ^ 2)) (u ^ 3 + 7))
  · rw [h] at e4
    exact ⟨fun h => (by cases h), fun h => absurd (e4.2 h.2.1) (by decide)⟩
  · exact ⟨fun h' => ⟨c1, e4.1 h, (Option.some.inj h').symm⟩, fun h' => congrArg some h'.2.2.symm⟩

/-- The branches with bit 1 set. -/
theorem invVar_high {x u : Fp} {c : ℕ} (hc : c &&& 2 ≠ 0) (t : Fp) :
    xswiftecInvVar x u c = some t ↔
      IsSquare (x - u) ∧ IsSquare (-(x - u) * (4 * (u ^ 3 + 7) + 3 * u ^ 2 * (x - u))) ∧
      ¬ (c &&& 1 = 1 ∧ (FeOps.sqrt (-(x - u) * (4 * (u ^ 3 + 7) + 3 * u ^ 2 * (x - u)))).1 = 0) ∧
      x - u ≠ 0 ∧
        t = xswiftecInvEnd u (x - u) (((x - u)⁻¹ * (FeOps.sqrt
          (-(x - u) * (4 * (u ^ 3 + 7) + 3 * u ^ 2 * (x - u)))).1 + -u) / 2) c := by
  unfold xswiftecInvVar
  simp only [if_neg hc]
  have e1 : add (negate (normalizeWeak u) 1) (normalizeWeak x) = x - u := by
    simp only [negate, add, normalizeWeak]; ring
  have e2 : negate (mul (add (mulInt (mul (x - u) (sqr (normalizeWeak u))) 3)
      (addInt (mulInt (mul (sqr (normalizeWeak u)) (normalizeWeak u)) 4) (4 * curveB))) (x - u)) 1 =
      -(x - u) * (4 * (u ^ 3 + 7) + 3 * u ^ 2 * (x - u)) := by
    simp only [negate, add, normalizeWeak, sqr, mul, mulInt, addInt, curveB]; push_cast; ring
  rw [e1, e2]
  have e3 := feIsSquareVar_iff (x - u)
  have e4 := feIsSquareVar_iff (-(x - u) * (4 * (u ^ 3 + 7) + 3 * u ^ 2 * (x - u)))
  cases h3 : feIsSquareVar (x - u)
  · rw [h3] at e3
    exact ⟨fun h => (by cases h), fun h => absurd (e3.2 h.1) (by decide)⟩
  cases h4 : feIsSquareVar (-(x - u) * (4 * (u ^ 3 + 7) + 3 * u ^ 2 * (x - u)))
  · rw [h4] at e4
    exact ⟨fun h => (by cases h), fun h => absurd (e4.2 h.2.1) (by decide)⟩
  rw [if_neg (by decide), if_neg (by decide)]
  generalize (FeOps.sqrt (-(x - u) * (4 * (u ^ 3 + 7) + 3 * u ^ 2 * (x - u)))).1 = r
  have h5 : ∀ a : Fp, normalizesToZero a = true ↔ a = 0 := fun a => by simp [normalizesToZero]
  by_cases h6 : c &&& 1 = 1 ∧ normalizesToZero r = true
  · rw [if_pos h6]
    exact ⟨fun h => (by cases h), fun h => absurd ⟨h6.1, (h5 r).1 h6.2⟩ h.2.2.1⟩
  rw [if_neg h6]
  by_cases h7 : normalizesToZero (x - u) = true
  · rw [if_pos h7]
    exact ⟨fun h => (by cases h), fun h => absurd ((h5 _).1 h7) h.2.2.2.1⟩
  rw [if_neg h7]
  rw [h5] at h6 h7
  exact ⟨fun h => ⟨e3.1 h3, e4.1 h4, h6, h7, (Option.some.inj h).symm⟩,
    fun h => congrArg some h.2.2.2.2.symm⟩

/-- The eight values, in terms of the square root `m` of `s`. -/
theorem invEnd_cases (u s v : Fp) :
    xswiftecInvEnd u s v 0 = -((FeOps.sqrt s).1 * (v - ellC1 * u)) ∧
    xswiftecInvEnd u s v 1 = (FeOps.sqrt s).1 * (v - ellC2 * u) ∧
    xswiftecInvEnd u s v 2 = -((FeOps.sqrt s).1 * (v - ellC1 * u)) ∧
    xswiftecInvEnd u s v 3 = (FeOps.sqrt s).1 * (v - ellC2 * u) ∧
    xswiftecInvEnd u s v 4 = (FeOps.sqrt s).1 * (v - ellC1 * u) ∧
    xswiftecInvEnd u s v 5 = -((FeOps.sqrt s).1 * (v - ellC2 * u)) ∧
    xswiftecInvEnd u s v 6 = (FeOps.sqrt s).1 * (v - ellC1 * u) ∧
    xswiftecInvEnd u s v 7 = -((FeOps.sqrt s).1 * (v - ellC2 * u)) := by
  unfold xswiftecInvEnd
  generalize FeOps.sqrt s = m
  simp only [mul, add, negate, ellC3_eq, ellC4_eq]
  refine ⟨?_, ?_, ?_, ?_, ?_, ?_, ?_, ?_⟩ <;> simp only [Nat.reduceAnd, Nat.reduceEqDiff, or_true, or_false,
    if_true, if_false] <;> ring

/-- The parts of a preimage. -/
theorem swift_parts {u t : Fp} (hu : u ≠ 0) (ht : t ≠ 0) (hp : u ^ 3 + 7 + t ^ 2 ≠ 0) :
    ∃ w : Fp, w ≠ 0 ∧ w = (u ^ 3 + 7 + t ^ 2) / (sqrtMinus3 * t * u) ∧
      w * (sqrtMinus3 * t * u) = u ^ 3 + 7 + t ^ 2 := by
  have hd : sqrtMinus3 * t * u ≠ 0 := mul_ne_zero (mul_ne_zero sqrtMinus3_ne ht) hu
  exact ⟨_, div_ne_zero hp hd, rfl, div_mul_cancel₀ _ hd⟩

/-- The high branches, existence. -/
theorem high_exists {x u t w : Fp} (hw0 : w ≠ 0)
    (hw : w * (sqrtMinus3 * t * u) = u ^ 3 + 7 + t ^ 2) (hx : x = u + w ^ 2) :
    ∃ c < 8, c &&& 2 ≠ 0 ∧ xswiftecInvVar x u c = some t := by
  have h2 := two_ne_zero_Fp
  have hs : x - u = w ^ 2 := by rw [hx]; ring
  have hs0 : x - u ≠ 0 := by rw [hs]; exact pow_ne_zero 2 hw0
  have hsq : IsSquare (x - u) := hs ▸ IsSquare.sq w
  -- the root of the second radicand that belongs to `t`
  obtain ⟨r0, hr0⟩ : ∃ r0 : Fp, r0 = 2 * t * w - w ^ 2 * (sqrtMinus3 * u) := ⟨_, rfl⟩
  have hq : r0 ^ 2 = -(x - u) * (4 * (u ^ 3 + 7) + 3 * u ^ 2 * (x - u)) := by
    rw [hs, hr0]
    linear_combination (-4 * w ^ 2) * hw + (w ^ 4 * u ^ 2) * sqrtMinus3_sq
  have hqs : IsSquare (-(x - u) * (4 * (u ^ 3 + 7) + 3 * u ^ 2 * (x - u))) := hq ▸ IsSquare.sq r0
  have hr := sqrt_sq hqs
  have hm := sqrt_sq hsq
  obtain ⟨i0, i1, i2, i3, i4, i5, i6, i7⟩ := invEnd_cases u (x - u) (((x - u)⁻¹ * (FeOps.sqrt
          (-(x - u) * (4 * (u ^ 3 + 7) + 3 * u ^ 2 * (x - u)))).1 + -u) / 2)
  have H := fun c (hc : c &&& 2 ≠ 0) => (invVar_high (x := x) (u := u) (c := c) hc t).2
  generalize (FeOps.sqrt (-(x - u) * (4 * (u ^ 3 + 7) + 3 * u ^ 2 * (x - u)))).1 = r at *
  generalize (FeOps.sqrt (x - u)).1 = m at *
  rw [← hq] at hr
  rw [hs] at hm
  have hm' : m = w ∨ m = -w := sq_eq_sq_iff_eq_or_eq_neg.mp hm
  have hr' : r = r0 ∨ r = -r0 := sq_eq_sq_iff_eq_or_eq_neg.mp hr
  have e3 : ∀ ε : Fp, 2 * (((x - u)⁻¹ * (ε * r0) + -u) / 2 - ellC2 * u) * w ^ 2 =
      ε * r0 + w ^ 2 * (sqrtMinus3 * u) := by
    intro ε
    rw [hs]
    field_simp
    linear_combination (-u * w ^ 2) * ellC2_eq
  have e2 : ∀ ε : Fp, 2 * (((x - u)⁻¹ * (ε * r0) + -u) / 2 - ellC1 * u) * w ^ 2 =
      ε * r0 - w ^ 2 * (sqrtMinus3 * u) := by
    intro ε
    rw [hs]
    field_simp
    linear_combination (-u * w ^ 2) * ellC1_eq
  have hc : ∀ y : Fp, 2 * y * w ^ 2 = 2 * t * w → t = w * y := by
    intro y h
    apply mul_left_cancel₀ h2
    apply mul_right_cancel₀ hw0
    linear_combination -h
  have hc' : ∀ y : Fp, 2 * y * w ^ 2 = -(2 * t * w) → t = -(w * y) := by
    intro y h
    apply mul_left_cancel₀ h2
    apply mul_right_cancel₀ hw0
    linear_combination h
  by_cases hz : r0 = 0
  · have hrz : r = 0 := by rcases hr' with h | h <;> rw [h, hz]; rw [neg_zero]
    have e := e2 0
    have e' : 2 * t * w = w ^ 2 * (sqrtMinus3 * u) := by linear_combination hz - hr0
    rw [zero_mul, zero_sub, ← e', ← hrz] at e
    have := hc' _ e
    rcases hm' with h | h
    · exact ⟨2, by decide, by decide, H 2 (by decide) ⟨hsq, hqs, by simp, hs0, by rw [i2, h]; exact this⟩⟩
    · exact ⟨6, by decide, by decide, H 6 (by decide) ⟨hsq, hqs, by simp, hs0, by
        rw [i6, h, neg_mul]; exact this⟩⟩
  rcases hr' with hr' | hr'
  · have e := e3 1
    rw [one_mul, ← hr'] at e
    have := hc _ (e.trans (by rw [hr', hr0]; ring))
    rcases hm' with h | h
    · exact ⟨3, by decide, by decide, H 3 (by decide) ⟨hsq, hqs, fun h => hz (hr' ▸ h.2), hs0, by
        rw [i3, h]; exact this⟩⟩
    · exact ⟨7, by decide, by decide, H 7 (by decide) ⟨hsq, hqs, fun h => hz (hr' ▸ h.2), hs0, by
        rw [i7, h, neg_mul, neg_neg]; exact this⟩⟩
  · have e := e2 (-1)
    rw [neg_one_mul, ← hr'] at e
    have := hc' _ (e.trans (by rw [hr', hr0]; ring))
    rcases hm' with h | h
    · exact ⟨2, by decide, by decide, H 2 (by decide) ⟨hsq, hqs, by simp, hs0, by rw [i2, h]; exact this⟩⟩
    · exact ⟨6, by decide, by decide, H 6 (by decide) ⟨hsq, hqs, by simp, hs0, by
        rw [i6, h, neg_mul]; exact this⟩⟩

/-- The low branches, existence. -/
theorem low_exists {x u t w x2 : Fp}
    (hh : (u ^ 2 + u * x2 + x2 ^ 2) * w ^ 2 = -(u ^ 3 + 7))
    (hx2 : w * (x2 - ellC2 * u) = t) (hx : x = x2 ∨ x = -u - x2) (hn : ¬ OnCurve (-u - x)) :
    ∃ c < 8, c &&& 2 = 0 ∧ xswiftecInvVar x u c = some t := by
  have hg := cubic_ne u
  have hh' : (u ^ 2 + u * x + x ^ 2) * w ^ 2 = -(u ^ 3 + 7) := by
    rcases hx with h | h
    · rw [h]; exact hh
    · rw [h, ← hh]; ring
  have hq0 : u ^ 2 + u * x + x ^ 2 ≠ 0 := by
    intro h; rw [h] at hh'; apply hg; linear_combination hh'
  have hs : (-(u ^ 2 + u * x + x ^ 2))⁻¹ * (u ^ 3 + 7) = w ^ 2 := by
    have : u ^ 3 + 7 = -(u ^ 2 + u * x + x ^ 2) * w ^ 2 := by linear_combination hh'
    rw [this, ← mul_assoc, inv_mul_cancel₀ (neg_ne_zero.2 hq0), one_mul]
  have hsq : IsSquare (-(u ^ 2 + u * x + x ^ 2) * (u ^ 3 + 7)) :=
    ⟨(u ^ 2 + u * x + x ^ 2) * w, by linear_combination (-(u ^ 2 + u * x + x ^ 2)) * hh'⟩
  have hm := sqrt_sq (IsSquare.sq w)
  obtain ⟨i0, i1, i2, i3, i4, i5, i6, i7⟩ := invEnd_cases u (w ^ 2) x
  have H := fun c (hc : c &&& 2 = 0) => (invVar_low (x := x) (u := u) (c := c) hc t).2
  rw [hs] at H
  generalize (FeOps.sqrt (w ^ 2)).1 = m at *
  have hm' : m = w ∨ m = -w := sq_eq_sq_iff_eq_or_eq_neg.mp hm
  rcases hx with h | h
  · have e : t = w * (x - ellC2 * u) := by rw [h, hx2]
    rcases hm' with h' | h'
    · exact ⟨1, by decide, by decide, H 1 (by decide) ⟨hn, hsq, by rw [i1, h']; exact e⟩⟩
    · exact ⟨5, by decide, by decide, H 5 (by decide) ⟨hn, hsq, by rw [i5, h', neg_mul, neg_neg]; exact e⟩⟩
  · have e : t = -(w * (x - ellC1 * u)) := by
      rw [h, ← hx2]
      linear_combination (-(w * u)) * ellC_sum
    rcases hm' with h' | h'
    · exact ⟨0, by decide, by decide, H 0 (by decide) ⟨hn, hsq, by rw [i0, h']; exact e⟩⟩
    · exact ⟨4, by decide, by decide, H 4 (by decide) ⟨hn, hsq, by rw [i4, h', neg_mul]; exact e⟩⟩

/-- Every preimage is found by some branch. -/
theorem inv_exists {u t : Fp} (hu : u ≠ 0) (ht : t ≠ 0) (hp : u ^ 3 + 7 + t ^ 2 ≠ 0) :
    ∃ c < 8, xswiftecInvVar (xswiftec u t) u c = some t := by
  obtain ⟨w, w0, ew, hw⟩ := swift_parts hu ht hp
  obtain ⟨h1, h2⟩ := xswiftec_generic hu ht hp
  have hx2 : w * ((u * (ellC1 * t ^ 2 + ellC2 * (u ^ 3 + 7))) / (u ^ 3 + 7 + t ^ 2) - ellC2 * u) = t := by
    apply mul_right_cancel₀ hp
    rw [mul_assoc, sub_mul, div_mul_cancel₀ _ hp]
    have := ellC_diff
    linear_combination t * hw + (w * u * t ^ 2) * ellC_diff
  rw [← ew] at h1 h2
  generalize (u * (ellC1 * t ^ 2 + ellC2 * (u ^ 3 + 7))) / (u ^ 3 + 7 + t ^ 2) = x2 at *
  rw [h2]
  unfold firstOnCurve
  by_cases c1 : OnCurve (u + w ^ 2)
  · rw [if_pos c1]
    obtain ⟨c, hc, -, h⟩ := high_exists w0 hw rfl
    exact ⟨c, hc, h⟩
  rw [if_neg c1]
  by_cases c2 : OnCurve x2
  · rw [if_pos c2]
    have hn : ¬ OnCurve (-u - x2) := by
      intro c3
      apply c1
      rw [onCurve_iff] at *
      have := IsSquare.sq ((u ^ 2 + u * x2 + x2 ^ 2) * w * (x2 - u - w ^ 2) * (-2 * u - x2 - w ^ 2))
      rwa [← swift_identity rfl h1, mul_assoc, square_mul_iff c2 (cubic_ne _),
        square_mul_iff c3 (cubic_ne _)] at this
    obtain ⟨c, hc, -, h⟩ := low_exists (x := x2) h1 hx2 (Or.inl rfl) hn
    exact ⟨c, hc, h⟩
  · rw [if_neg c2]
    obtain ⟨c, hc, -, h⟩ := low_exists (x := -u - x2) h1 hx2 (Or.inr rfl)
      (by rwa [show -u - (-u - x2) = x2 by ring])
    exact ⟨c, hc, h⟩

theorem ne_neg_self {a : Fp} (h : a ≠ 0) : a ≠ -a := by
  intro e
  have : 2 * a = 0 := by linear_combination e
  exact h ((mul_eq_zero.1 this).resolve_left two_ne_zero_Fp)

/-- A low and a high branch never give the same result: one needs the first candidate not to be on the
curve, the other needs it to be. -/
theorem low_high {x u t : Fp} {c d : ℕ} (hx : OnCurve x) (hu : u ≠ 0) (hc : c &&& 2 = 0)
    (hd : d &&& 2 ≠ 0) (h : xswiftecInvVar x u c = some t) (h' : xswiftecInvVar x u d = some t) : False := by
  exact absurd hc ((xswiftecInvVar_spec' hx hu h).2.2.2.1 ((xswiftecInvVar_spec' hx hu h').2.2.2.2 hd))

/-- Two low branches never give the same result. -/
theorem low_low {x u t : Fp} {c d : ℕ} (hx : OnCurve x) (hu : u ≠ 0) (hc : c &&& 2 = 0) (hd : d &&& 2 = 0)
    (hc8 : c < 8) (hd8 : d < 8)
    (h : xswiftecInvVar x u c = some t) (h' : xswiftecInvVar x u d = some t) : c = d := by
  have t0 := (xswiftecInvVar_spec hx hu h).1
  obtain ⟨a1, a2, a3⟩ := (invVar_low hc t).1 h
  obtain ⟨-, -, b3⟩ := (invVar_low hd t).1 h'
  obtain ⟨i0, i1, i2, i3, i4, i5, i6, i7⟩ := invEnd_cases u ((-(u ^ 2 + u * x + x ^ 2))⁻¹ * (u ^ 3 + 7)) x
  generalize (-(u ^ 2 + u * x + x ^ 2))⁻¹ * (u ^ 3 + 7) = s at *
  generalize (FeOps.sqrt s).1 = m at *
  have k1 : m * (x - ellC1 * u) ≠ m * (x - ellC2 * u) ∨ m = 0 := by
    by_cases hm : m = 0
    · exact Or.inr hm
    · refine Or.inl fun e => ?_
      have := mul_left_cancel₀ hm e
      exact mul_ne_zero ellC_ne hu (by linear_combination -this)
  have k2 : m * (x - ellC1 * u) ≠ -(m * (x - ellC2 * u)) ∨ m = 0 := by
    by_cases hm : m = 0
    · exact Or.inr hm
    · refine Or.inl fun e => ?_
      rw [← mul_neg] at e
      have := mul_left_cancel₀ hm e
      have e2 : -u - x = x := by linear_combination -this - u * ellC_sum
      rw [e2] at a1
      exact a1 hx
  have hc' : c = 0 ∨ c = 1 ∨ c = 4 ∨ c = 5 := by interval_cases c <;> simp_all
  have hd' : d = 0 ∨ d = 1 ∨ d = 4 ∨ d = 5 := by interval_cases d <;> simp_all
  have m0 : m ≠ 0 := by
    rintro rfl
    apply t0
    rcases hc' with rfl | rfl | rfl | rfl
    · rw [a3, i0]; ring
    · rw [a3, i1]; ring
    · rw [a3, i4]; ring
    · rw [a3, i5]; ring
  have k1 := k1.resolve_right m0
  have k2 := k2.resolve_right m0
  generalize m * (x - ellC1 * u) = A at *
  generalize m * (x - ellC2 * u) = B at *
  rcases hc' with rfl | rfl | rfl | rfl <;> rcases hd' with rfl | rfl | rfl | rfl <;>
    simp only [i0, i1, i4, i5] at a3 b3 <;> first
    | rfl
    | exact absurd (by linear_combination b3 - a3) k1
    | exact absurd (by linear_combination a3 - b3) k1
    | exact absurd (by linear_combination b3 - a3) k2
    | exact absurd (by linear_combination a3 - b3) k2
    | exact absurd (by linear_combination a3 + b3) (ne_neg_self t0)

/-- Two high branches never give the same result. -/
theorem high_high {x u t : Fp} {c d : ℕ} (hx : OnCurve x) (hu : u ≠ 0) (hc : c &&& 2 ≠ 0) (hd : d &&& 2 ≠ 0)
    (hc8 : c < 8) (hd8 : d < 8)
    (h : xswiftecInvVar x u c = some t) (h' : xswiftecInvVar x u d = some t) : c = d := by
  have h2 := two_ne_zero_Fp
  have t0 := (xswiftecInvVar_spec hx hu h).1
  obtain ⟨-, -, a1, s0, a3⟩ := (invVar_high hc t).1 h
  obtain ⟨-, -, b1, -, b3⟩ := (invVar_high hd t).1 h'
  generalize (FeOps.sqrt (-(x - u) * (4 * (u ^ 3 + 7) + 3 * u ^ 2 * (x - u)))).1 = r at *
  obtain ⟨v, ev⟩ : ∃ v, v = ((x - u)⁻¹ * r + -u) / 2 := ⟨_, rfl⟩
  rw [← ev] at a3 b3
  obtain ⟨i0, i1, i2, i3, i4, i5, i6, i7⟩ := invEnd_cases u (x - u) v
  generalize (FeOps.sqrt (x - u)).1 = m at *
  have hc' : c = 2 ∨ c = 3 ∨ c = 6 ∨ c = 7 := by interval_cases c <;> simp_all
  have hd' : d = 2 ∨ d = 3 ∨ d = 6 ∨ d = 7 := by interval_cases d <;> simp_all
  have m0 : m ≠ 0 := by
    rintro rfl
    apply t0
    rcases hc' with rfl | rfl | rfl | rfl
    · rw [a3, i2]; ring
    · rw [a3, i3]; ring
    · rw [a3, i6]; ring
    · rw [a3, i7]; ring
  have k1 : m * (v - ellC1 * u) ≠ m * (v - ellC2 * u) := by
    intro e
    have := mul_left_cancel₀ m0 e
    exact mul_ne_zero ellC_ne hu (by linear_combination -this)
  have k2 : r ≠ 0 → m * (v - ellC1 * u) ≠ -(m * (v - ellC2 * u)) := by
    intro hr e
    rw [← mul_neg] at e
    have := mul_left_cancel₀ m0 e
    have e2 : 2 * v = (x - u)⁻¹ * r + -u := by rw [ev, mul_div_cancel₀ _ h2]
    have e3 : (x - u)⁻¹ * r = 0 := by linear_combination this - e2 + u * ellC_sum
    exact mul_ne_zero (inv_ne_zero s0) hr e3
  clear ev
  generalize m * (v - ellC1 * u) = A at *
  generalize m * (v - ellC2 * u) = B at *
  have a2 : ∀ P : Prop, (r ≠ 0 → P) → (c = 3 ∨ c = 7 ∨ d = 3 ∨ d = 7) → P := by
    intro P hP hcd
    refine hP fun hr => ?_
    rcases hcd with rfl | rfl | rfl | rfl
    · exact a1 ⟨rfl, hr⟩
    · exact a1 ⟨rfl, hr⟩
    · exact b1 ⟨rfl, hr⟩
    · exact b1 ⟨rfl, hr⟩
  have k2 := a2 _ k2
  rcases hc' with rfl | rfl | rfl | rfl <;> rcases hd' with rfl | rfl | rfl | rfl <;>
    simp only [i2, i3, i6, i7] at a3 b3 <;> first
    | rfl
    | exact absurd (by linear_combination b3 - a3) k1
    | exact absurd (by linear_combination a3 - b3) k1
    | exact absurd (by linear_combination a3 + b3) (ne_neg_self t0)
    | exact absurd (by linear_combination b3 - a3) (k2 (by simp))
    | exact absurd (by linear_combination a3 - b3) (k2 (by simp))

/-- Different branches give different results. -/
theorem inv_inj {x u t : Fp} {c d : ℕ} (hx : OnCurve x) (hu : u ≠ 0) (hc8 : c < 8) (hd8 : d < 8)
    (h : xswiftecInvVar x u c = some t) (h' : xswiftecInvVar x u d = some t) : c = d := by
  by_cases hc : c &&& 2 = 0
  · by_cases hd : d &&& 2 = 0
    · exact low_low hx hu hc hd hc8 hd8 h h'
    · exact (low_high hx hu hc hd h h').elim
  · by_cases hd : d &&& 2 = 0
    · exact (low_high hx hu hd hc h' h).elim
    · exact high_high hx hu hc hd hc8 hd8 h h'

end Secp
