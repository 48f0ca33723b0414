import Verif.Proof.Ellswift

/-! # The inverse of the XSwiftEC map -/

namespace Secp
open WeierstrassCurve Model Spec FeOps

/-- The map away from the special cases. -/
theorem xswiftec_generic {u t : Fp} (hu : u ≠ 0) (ht : t ≠ 0) (hp : u ^ 3 + 7 + t ^ 2 ≠ 0) :
    let x2 := (u * (ellC1 * t ^ 2 + ellC2 * (u ^ 3 + 7))) / (u ^ 3 + 7 + t ^ 2)
    let w := (u ^ 3 + 7 + t ^ 2) / (sqrtMinus3 * t * u)
    (u ^ 2 + u * x2 + x2 ^ 2) * w ^ 2 = -(u ^ 3 + 7) ∧
      xswiftec u t = firstOnCurve (u + w ^ 2) x2 (-u - x2) := by
  obtain ⟨h1, h2⟩ := cand_spec hu ht hp
  refine ⟨h1, ?_⟩
  have hp' : ¬ u ^ 3 + t ^ 2 + 7 = 0 := fun h => hp (by linear_combination h)
  unfold xswiftec
  simp only [if_neg hu, if_neg ht, if_neg hp']
  rw [cand_x1 hu ht hp, cand_x2 hu ht hp, cand_x3 hu ht, h2]

/-- The x coordinate does not depend on the sign of `t`. -/
theorem xswiftec_neg (u t : Fp) : xswiftec u (-t) = xswiftec u t := by
  obtain ⟨u', hu⟩ : ∃ u', u' = if u = 0 then (1 : Fp) else u := ⟨_, rfl⟩
  by_cases h0 : t = 0
  · rw [h0, neg_zero]
  unfold xswiftec
  simp only [← hu, if_neg h0, if_neg (neg_ne_zero.2 h0), neg_sq]
  by_cases h : u' ^ 3 + t ^ 2 + 7 = 0
  · simp only [if_pos h]
    have e : (u' ^ 3 + 7 - (2 * -t) ^ 2) / (2 * (2 * -t)) = -((u' ^ 3 + 7 - (2 * t) ^ 2) / (2 * (2 * t))) := by
      rw [← div_neg]; congr 1 <;> ring
    rw [e]
    generalize (u' ^ 3 + 7 - (2 * t) ^ 2) / (2 * (2 * t)) = X
    have e2 : (-X + 2 * -t) / (sqrtMinus3 * u') = -((X + 2 * t) / (sqrtMinus3 * u')) := by
      rw [← neg_div]; congr 1; ring
    rw [e2, neg_sq, neg_neg X, neg_div_neg_eq, div_neg, neg_div]
  · simp only [if_neg h]
    have e : (u' ^ 3 + 7 - (-t) ^ 2) / (2 * -t) = -((u' ^ 3 + 7 - t ^ 2) / (2 * t)) := by
      rw [← div_neg]; congr 1 <;> ring
    rw [e]
    generalize (u' ^ 3 + 7 - t ^ 2) / (2 * t) = X
    have e2 : (-X + -t) / (sqrtMinus3 * u') = -((X + t) / (sqrtMinus3 * u')) := by
      rw [← neg_div]; congr 1; ring
    rw [e2, neg_sq, neg_neg X, neg_div_neg_eq, div_neg, neg_div]

theorem ellC_sub : (ellC1 - ellC2) ^ 2 = -3 := by decide +kernel

theorem ellC_ne : ellC1 - ellC2 ≠ 0 := by decide +kernel

theorem quad_factor (u x : Fp) :
    u ^ 2 + u * x + x ^ 2 = (x - ellC1 * u) * (x - ellC2 * u) := by
  linear_combination (u * x) * ellC_sum - u ^ 2 * ellC_mul

/-- Branches with bit 1 clear: the encodings that decode through the second or third formula. -/
theorem inv_low {u x t s : Fp} (hu : u ≠ 0) (hx : OnCurve x) (hm : ¬ OnCurve (-u - x))
    (hs : s * (u ^ 2 + u * x + x ^ 2) = -(u ^ 3 + 7))
    (ht : t ^ 2 = s * (x - ellC1 * u) ^ 2 ∨ t ^ 2 = s * (x - ellC2 * u) ^ 2) :
    t ≠ 0 ∧ u ^ 3 + 7 + t ^ 2 ≠ 0 ∧ xswiftec u t = x ∧
      ¬ OnCurve (u + ((u ^ 3 + 7 + t ^ 2) / (sqrtMinus3 * t * u)) ^ 2) := by
  have hg := cubic_ne u
  have hsub := ellC_ne
  have hc := quad_factor u x
  obtain ⟨A, hA⟩ : ∃ A, A = x - ellC1 * u := ⟨_, rfl⟩
  obtain ⟨B, hB⟩ : ∃ B, B = x - ellC2 * u := ⟨_, rfl⟩
  rw [← hA, ← hB] at hc
  rw [← hA, ← hB] at ht
  rw [hc] at hs
  have hA0 : A ≠ 0 := by rintro h; rw [h] at hs; apply hg; linear_combination hs
  have hB0 : B ≠ 0 := by rintro h; rw [h] at hs; apply hg; linear_combination hs
  have hs0 : s ≠ 0 := by rintro h; rw [h] at hs; apply hg; linear_combination hs
  obtain ⟨g, eg⟩ : ∃ g, g = u ^ 3 + 7 := ⟨_, rfl⟩
  rw [← eg] at hs hg ⊢
  have hAB : B - A = (ellC1 - ellC2) * u := by rw [hA, hB]; ring
  rcases ht with ht | ht
  · have t0 : t ≠ 0 := by
      rintro h
      rw [h] at ht
      exact mul_ne_zero hs0 (pow_ne_zero 2 hA0) (by rw [← ht]; ring)
    have pB : (g + t ^ 2) * B = g * (ellC1 - ellC2) * u := by
      rw [ht]; linear_combination A * hs + g * hAB
    have p0 : g + t ^ 2 ≠ 0 := by
      intro h
      rw [h, zero_mul] at pB
      exact mul_ne_zero (mul_ne_zero hg hsub) hu pB.symm
    rw [eg] at p0
    refine ⟨t0, by rw [eg]; exact p0, ?_⟩
    obtain ⟨h1, h2⟩ := xswiftec_generic hu t0 p0
    have ex : (u * (ellC1 * t ^ 2 + ellC2 * (u ^ 3 + 7))) / (u ^ 3 + 7 + t ^ 2) = -u - x := by
      rw [div_eq_iff p0, ← eg]
      apply mul_right_cancel₀ hB0
      rw [ht]
      have e1 := hs
      have q : s * A ^ 2 * B = -g * A := by linear_combination A * hs
      have e2 : u * (ellC1 * (s * A ^ 2) + ellC2 * g) * B = u * g * (ellC2 * B - ellC1 * A) := by
        linear_combination u * ellC1 * q
      rw [e2]
      have e3 : (-u - x) * (g + s * A ^ 2) * B = (-u - x) * g * (B - A) := by
        linear_combination (-u - x) * q
      rw [e3, hAB, hA, hB]
      linear_combination (u ^ 2 * g * (ellC1 - ellC2)) * ellC_sum
    rw [ex] at h1
    have h3 := swift_third (u := u) (x := x) rfl
      (w := (u ^ 3 + 7 + t ^ 2) / (sqrtMinus3 * t * u)) (by rw [← h1]; ring) hx hm
    refine ⟨?_, by rw [eg]; exact h3⟩
    rw [h2, ex]
    unfold firstOnCurve
    rw [if_neg h3, if_neg hm]
    ring
  · have t0 : t ≠ 0 := by
      rintro h
      rw [h] at ht
      exact mul_ne_zero hs0 (pow_ne_zero 2 hB0) (by rw [← ht]; ring)
    have pA : (g + t ^ 2) * A = -(g * (ellC1 - ellC2) * u) := by
      rw [ht]; linear_combination B * hs - g * hAB
    have p0 : g + t ^ 2 ≠ 0 := by
      intro h
      rw [h, zero_mul] at pA
      exact neg_ne_zero.2 (mul_ne_zero (mul_ne_zero hg hsub) hu) pA.symm
    rw [eg] at p0
    refine ⟨t0, by rw [eg]; exact p0, ?_⟩
    obtain ⟨h1, h2⟩ := xswiftec_generic hu t0 p0
    have ex : (u * (ellC1 * t ^ 2 + ellC2 * (u ^ 3 + 7))) / (u ^ 3 + 7 + t ^ 2) = x := by
      rw [div_eq_iff p0, ← eg]
      apply mul_right_cancel₀ hA0
      rw [ht]
      have q : s * B ^ 2 * A = -g * B := by linear_combination B * hs
      have e2 : u * (ellC1 * (s * B ^ 2) + ellC2 * g) * A = u * g * (ellC2 * A - ellC1 * B) := by
        linear_combination u * ellC1 * q
      have e3 : x * (g + s * B ^ 2) * A = x * g * (A - B) := by
        linear_combination x * q
      rw [e2, e3, hA, hB]
      ring
    rw [ex] at h1
    have h3 := swift_third (u := u) (x := x) rfl
      (w := (u ^ 3 + 7 + t ^ 2) / (sqrtMinus3 * t * u)) h1 hx hm
    refine ⟨?_, by rw [eg]; exact h3⟩
    rw [h2, ex]
    unfold firstOnCurve
    rw [if_neg h3, if_pos hx]

/-- Branches with bit 1 set: the encodings that decode through the first formula. -/
theorem inv_high {u x t s r e : Fp} (hu : u ≠ 0) (hx : OnCurve x) (hs : s = x - u) (hs0 : s ≠ 0)
    (hr : r ^ 2 = -s * (4 * (u ^ 3 + 7) + 3 * u ^ 2 * s)) (he : e ^ 2 = -3)
    (ht : 4 * t ^ 2 = s * (r / s + e * u) ^ 2) :
    t ≠ 0 ∧ u ^ 3 + 7 + t ^ 2 ≠ 0 ∧ xswiftec u t = x ∧
      x = u + ((u ^ 3 + 7 + t ^ 2) / (sqrtMinus3 * t * u)) ^ 2 := by
  have hg := cubic_ne u
  have h2 := two_ne_zero_Fp
  have h4 : (4 : Fp) ≠ 0 := by
    have : (4 : Fp) = 2 * 2 := by norm_num
    rw [this]; exact mul_ne_zero h2 h2
  have h3 := three_ne_zero_Fp
  have he0 : e ≠ 0 := by
    rintro h; rw [h] at he; apply h3; linear_combination he
  obtain ⟨g, eg⟩ : ∃ g, g = u ^ 3 + 7 := ⟨_, rfl⟩
  rw [← eg] at hr hg ⊢
  obtain ⟨ρ, hρ⟩ : ∃ ρ, ρ = r / s := ⟨_, rfl⟩
  rw [← hρ] at ht
  have er : r = ρ * s := by rw [hρ]; field_simp
  have e1 : 4 * g = -s * (ρ - e * u) * (ρ + e * u) := by
    apply mul_right_cancel₀ hs0
    rw [er] at hr
    linear_combination hr - (u ^ 2 * s ^ 2) * he
  obtain ⟨σ, hσ⟩ : ∃ σ, σ = ρ + e * u := ⟨_, rfl⟩
  rw [← hσ] at e1 ht
  have hσ0 : σ ≠ 0 := by
    rintro h; rw [h] at e1
    exact mul_ne_zero h4 hg (by rw [e1]; ring)
  have t0 : t ≠ 0 := by
    rintro h; rw [h] at ht
    exact mul_ne_zero hs0 (pow_ne_zero 2 hσ0) (by rw [← ht]; ring)
  have e2 : 2 * (g + t ^ 2) = s * σ * (e * u) := by
    apply mul_left_cancel₀ h2
    have : ρ - e * u = σ - 2 * (e * u) := by rw [hσ]; ring
    rw [this] at e1
    linear_combination e1 + ht
  have p0 : g + t ^ 2 ≠ 0 := by
    intro h
    rw [h, mul_zero] at e2
    exact mul_ne_zero (mul_ne_zero hs0 hσ0) (mul_ne_zero he0 hu) e2.symm
  rw [eg] at p0
  refine ⟨t0, by rw [eg]; exact p0, ?_⟩
  obtain ⟨-, h1⟩ := xswiftec_generic hu t0 p0
  have ew : ((u ^ 3 + 7 + t ^ 2) / (sqrtMinus3 * t * u)) ^ 2 = s := by
    rw [div_pow, mul_pow, mul_pow, sqrtMinus3_sq, div_eq_iff (by
      exact mul_ne_zero (mul_ne_zero (neg_ne_zero.2 h3) (pow_ne_zero 2 t0)) (pow_ne_zero 2 hu)), ← eg]
    apply mul_left_cancel₀ h4
    have : 4 * (g + t ^ 2) ^ 2 = (s * σ * (e * u)) ^ 2 := by rw [← e2]; ring
    rw [this]
    linear_combination (s ^ 2 * σ ^ 2 * u ^ 2) * he + 3 * s * u ^ 2 * ht
  refine ⟨?_, by rw [eg, ew, hs]; ring⟩
  rw [h1, ew, hs]
  unfold firstOnCurve
  rw [if_pos (by rw [add_sub_cancel]; exact hx)]
  ring

theorem feIsSquareVar_not {a : Fp} (h : ¬ (!feIsSquareVar a) = true) : IsSquare a := by
  rw [← feIsSquareVar_iff]
  simpa using h

/-- The square of the result. -/
theorem invEnd_sq (u s v : Fp) (c : ℕ) (hs : IsSquare s) :
    xswiftecInvEnd u s v c ^ 2 = s * ((if c &&& 1 = 1 then ellC4 else ellC3) * u + v) ^ 2 := by
  have h := sqrt_sq hs
  unfold xswiftecInvEnd
  simp only [mul, add, negate]
  generalize (if c &&& 1 = 1 then ellC4 else ellC3) = k
  split_ifs <;> linear_combination ((k * u + v) ^ 2) * h

/-- What a result is; branches with bit 1 clear answer only if the first candidate is not on the curve, the
others only if it is. -/
theorem xswiftecInvVar_spec' {x u t : Fp} {c : ℕ} (hx : OnCurve x) (hu : u ≠ 0)
    (h : xswiftecInvVar x u c = some t) :
    t ≠ 0 ∧ u ^ 3 + 7 + t ^ 2 ≠ 0 ∧ xswiftec u t = x ∧
      (OnCurve (u + ((u ^ 3 + 7 + t ^ 2) / (sqrtMinus3 * t * u)) ^ 2) ↔ c &&& 2 ≠ 0) := by
  have h2 := two_ne_zero_Fp
  unfold xswiftecInvVar at h
  by_cases hc : c &&& 2 = 0
  · simp only [if_pos hc] at h
    have e1 : negate (add (normalizeWeak x) (normalizeWeak u)) 2 = -u - x := by
      simp only [negate, add, normalizeWeak]; ring
    have e2 : add (negate (sqr (-u - x)) 1) (mul (normalizeWeak u) (normalizeWeak x)) =
        -(u ^ 2 + u * x + x ^ 2) := by
      simp only [negate, add, normalizeWeak, sqr, mul]; ring
    have e3 : addInt (mul (sqr (normalizeWeak u)) (normalizeWeak u)) curveB = u ^ 3 + 7 := by
      simp only [mul, sqr, addInt, curveB, normalizeWeak]; push_cast; ring
    rw [e1, e2, e3] at h
    by_cases c1 : geXOnCurveVar (-u - x) = true
    · rw [if_pos c1] at h; cases h
    rw [if_neg c1] at h
    rw [geXOnCurveVar_iff] at c1
    by_cases c2 : (!feIsSquareVar (mul (-(u ^ 2 + u * x + x ^ 2)) (u ^ 3 + 7))) = true
    · rw [if_pos c2] at h; cases h
    rw [if_neg c2] at h
    have hsq : IsSquare (-(u ^ 2 + u * x + x ^ 2) * (u ^ 3 + 7)) := feIsSquareVar_not c2
    have hq0 : u ^ 2 + u * x + x ^ 2 ≠ 0 := by
      intro h0
      obtain ⟨y, hy⟩ := hx
      exact c1 ⟨y, by rw [hy]; linear_combination (2 * x + u) * h0⟩
    obtain ⟨s, es⟩ : ∃ s, s = mul (FeOps.invVar (-(u ^ 2 + u * x + x ^ 2))) (u ^ 3 + 7) := ⟨_, rfl⟩
    rw [← es] at h
    have es' : s = (-(u ^ 2 + u * x + x ^ 2))⁻¹ * (u ^ 3 + 7) := es
    have hs : s * (u ^ 2 + u * x + x ^ 2) = -(u ^ 3 + 7) := by
      rw [es', mul_right_comm, inv_neg, neg_mul, neg_mul, inv_mul_cancel₀ hq0, one_mul]
    have hss : IsSquare s := by
      obtain ⟨q, hq⟩ := hsq
      refine ⟨q / (u ^ 2 + u * x + x ^ 2), ?_⟩
      rw [div_mul_div_comm, ← hq, es']
      field_simp
    have ht : t = xswiftecInvEnd u s x c := (Option.some.inj h).symm
    have hsq2 := invEnd_sq u s x c hss
    rw [← ht] at hsq2
    suffices h : _ by
      obtain ⟨i1, i2, i3, i4⟩ := inv_low (t := t) hu hx c1 hs h
      exact ⟨i1, i2, i3, fun h => absurd h i4, fun h => absurd hc h⟩
    by_cases hb : c &&& 1 = 1
    · right; rw [hsq2, if_pos hb, ellC4_eq]; ring
    · left; rw [hsq2, if_neg hb, ellC3_eq]; ring
  · simp only [if_neg hc] at h
    have e1 : add (negate (normalizeWeak u) 1) (normalizeWeak x) = x - u := by
      simp only [negate, add, normalizeWeak]; ring
    have e2 : negate (mul (add (mulInt (mul (x - u) (sqr (normalizeWeak u))) 3)
        (addInt (mulInt (mul (sqr (normalizeWeak u)) (normalizeWeak u)) 4) (4 * curveB))) (x - u)) 1 =
        -(x - u) * (4 * (u ^ 3 + 7) + 3 * u ^ 2 * (x - u)) := by
      simp only [negate, add, normalizeWeak, sqr, mul, mulInt, addInt, curveB]; push_cast; ring
    rw [e1, e2] at h
    obtain ⟨s, es⟩ : ∃ s, s = x - u := ⟨_, rfl⟩
    rw [← es] at h
    by_cases c1 : (!feIsSquareVar s) = true
    · rw [if_pos c1] at h; cases h
    rw [if_neg c1] at h
    have hss := feIsSquareVar_not c1
    by_cases c2 : (!feIsSquareVar (-s * (4 * (u ^ 3 + 7) + 3 * u ^ 2 * s))) = true
    · rw [if_pos c2] at h; cases h
    rw [if_neg c2] at h
    have hr := sqrt_sq (feIsSquareVar_not c2)
    obtain ⟨r, er⟩ : ∃ r, r = (FeOps.sqrt (-s * (4 * (u ^ 3 + 7) + 3 * u ^ 2 * s))).1 := ⟨_, rfl⟩
    rw [← er] at h hr
    split_ifs at h with c3 c4
    have hs0 : s ≠ 0 := by simpa [normalizesToZero] using c4
    obtain ⟨v, ev⟩ : ∃ v, v = half (add (mul (FeOps.invVar s) r) (negate (normalizeWeak u) 1)) := ⟨_, rfl⟩
    rw [← ev] at h
    have ev' : v = (s⁻¹ * r + -u) / 2 := ev
    have ht : t = xswiftecInvEnd u s v c := (Option.some.inj h).symm
    have hsq2 := invEnd_sq u s v c hss
    rw [← ht] at hsq2
    suffices h : ∃ e : Fp, e ^ 2 = -3 ∧ 4 * t ^ 2 = s * (r / s + e * u) ^ 2 by
      obtain ⟨e, he, h⟩ := h
      obtain ⟨i1, i2, i3, i4⟩ := inv_high hu hx es hs0 hr he h
      exact ⟨i1, i2, i3, fun _ => hc, fun _ => i4 ▸ hx⟩
    by_cases hb : c &&& 1 = 1
    · rw [if_pos hb, ellC4_eq] at hsq2
      refine ⟨sqrtMinus3, sqrtMinus3_sq, ?_⟩
      rw [hsq2, ev']
      have : 2 * (-ellC2 * u + (s⁻¹ * r + -u) / 2) = r / s + sqrtMinus3 * u := by
        field_simp
        linear_combination (-u * s) * ellC2_eq
      rw [← this]; ring
    · rw [if_neg hb, ellC3_eq] at hsq2
      refine ⟨-sqrtMinus3, by rw [neg_sq]; exact sqrtMinus3_sq, ?_⟩
      rw [hsq2, ev']
      have : 2 * (-ellC1 * u + (s⁻¹ * r + -u) / 2) = r / s + -sqrtMinus3 * u := by
        field_simp
        linear_combination (-u * s) * ellC1_eq
      rw [← this]; ring

theorem xswiftecInvVar_spec {x u t : Fp} {c : ℕ} (hx : OnCurve x) (hu : u ≠ 0)
    (h : xswiftecInvVar x u c = some t) :
    t ≠ 0 ∧ u ^ 3 + 7 + t ^ 2 ≠ 0 ∧ xswiftec u t = x :=
  let ⟨h1, h2, h3, _⟩ := xswiftecInvVar_spec' hx hu h
  ⟨h1, h2, h3⟩

end Secp
