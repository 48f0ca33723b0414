import Verif.Proof.Divstep

/-!
The two certificates: 590 steps of the constant-time variant and 744 steps of the variable-time
variant reach `g = 0` from every odd `f` and every `g` with `0 ≤ g ≤ f ≤ 2^256`.
-/

namespace Secp.Divstep

/-- Functionals of the polygon norm of the constant-time variant, scaled by 100000. -/
def norm2 : List (ℤ × ℤ) :=
  [(67378, 260), (65507, 10660), (65278, 11575), (61488, 26150), (53575, 41668), (47331, 51437),
   (44797, 55190), (44529, 55471), (33229, 66771), (28500, 71280), (17700, 79372), (-175, 91205),
   (-7201, 95702), (-7819, 96011), (-25688, 104588), (-31710, 105923), (-34024, 106270),
   (-37763, 104749), (-43943, 101055), (-48932, 95222), (-56227, 84124), (-59000, 79621),
   (-59190, 79144), (-65575, 62117), (-67629, 53901), (-69368, 46230), (-71552, 28711),
   (-71786, 25819)]

/-- Functionals of the polygon norm of the variable-time variant, scaled by 1000. -/
def norm1 : List (ℤ × ℤ) :=
  [(619, 0), (376, 487), (163, 837), (-196, 1196), (-415, 1322), (-434, 1330), (-534, 930),
   (-619, 403)]

theorem norm2_check : ((List.range 20).all fun k =>
    roundCheck norm2 151 204 k k 1 && roundCheck norm2 151 204 k k (2 ^ (k + 1) - 1)) = true := by
  decide +kernel

theorem norm1_check : ((List.range 20).all fun k =>
    roundCheck norm1 63 80 k (k + 1) 1 &&
      roundCheck norm1 63 80 k (k + 1) (2 ^ (k + 1 + 1) - 1)) = true := by
  decide +kernel

/-- `f` and `g` from the norm. -/
theorem norm2_fg {B : ℚ} {f g : ℤ} (h : Inside norm2 B f g) :
    |(f : ℚ)| ≤ 15 / 1000000 * B ∧ |(g : ℚ)| ≤ 1098 / 100000000 * B := by
  have h1 := coneAny_sound (N := norm2) (al := 1) (be := 0) (num := 15) (den := 1000000)
    (by decide +kernel) (by norm_num) h
  have h2 := coneAny_sound (N := norm2) (al := 0) (be := 1) (num := 1098) (den := 100000000)
    (by decide +kernel) (by norm_num) h
  push_cast at h1 h2
  simp only [one_mul, zero_mul, add_zero, zero_add] at h1 h2
  constructor <;> linarith

theorem norm1_fg {B : ℚ} {f g : ℤ} (h : Inside norm1 B f g) :
    |(f : ℚ)| ≤ 1617 / 1000000 * B ∧ |(g : ℚ)| ≤ 1 / 1000 * B := by
  have h1 := coneAny_sound (N := norm1) (al := 1) (be := 0) (num := 1617) (den := 1000000)
    (by decide +kernel) (by norm_num) h
  have h2 := coneAny_sound (N := norm1) (al := 0) (be := 1) (num := 1) (den := 1000)
    (by decide +kernel) (by norm_num) h
  push_cast at h1 h2
  simp only [one_mul, zero_mul, add_zero, zero_add] at h1 h2
  constructor <;> linarith

theorem inside_nonneg {N : List (ℤ × ℤ)} (hN : N ≠ []) {B : ℚ} {f g : ℤ} (h : Inside N B f g) :
    0 ≤ B := by
  obtain ⟨v, l, rfl⟩ := List.exists_cons_of_ne_nil hN
  exact (abs_nonneg _).trans (h v List.mem_cons_self)

theorem tail2 (k : ℕ) (hk : 20 ≤ k) : (236 : ℚ) / 100 ≤ 2 ^ k * (151 / 204) ^ (k + 1 + k) := by
  induction k, hk using Nat.le_induction with
  | base => norm_num
  | succ k _ ih =>
    have e : (2 : ℚ) ^ (k + 1) * (151 / 204) ^ (k + 1 + 1 + (k + 1)) =
        (2 ^ k * (151 / 204) ^ (k + 1 + k)) * (2 * (151 / 204) ^ 2) := by ring
    rw [e]
    have h2 : (1 : ℚ) ≤ 2 * (151 / 204) ^ 2 := by norm_num
    calc (236 : ℚ) / 100 ≤ 2 ^ k * (151 / 204) ^ (k + 1 + k) := ih
      _ ≤ _ := le_mul_of_one_le_right (by positivity) h2

theorem tail1 (k : ℕ) (hk : 20 ≤ k) : (285 : ℚ) / 100 ≤ 2 ^ k * (63 / 80) ^ (k + 1 + (k + 1)) := by
  induction k, hk using Nat.le_induction with
  | base => norm_num
  | succ k _ ih =>
    have e : (2 : ℚ) ^ (k + 1) * (63 / 80) ^ (k + 1 + 1 + (k + 1 + 1)) =
        (2 ^ k * (63 / 80) ^ (k + 1 + (k + 1))) * (2 * (63 / 80) ^ 2) := by ring
    rw [e]
    have h2 : (1 : ℚ) ≤ 2 * (63 / 80) ^ 2 := by norm_num
    calc (285 : ℚ) / 100 ≤ 2 ^ k * (63 / 80) ^ (k + 1 + (k + 1)) := ih
      _ ≤ _ := le_mul_of_one_le_right (by positivity) h2

theorem norm2_tail : ∀ v ∈ norm2, |(v.1 : ℚ)| * (1098 / 100000000) +
    |(v.2 : ℚ)| * (1098 / 100000000 + 15 / 1000000 / 2) ≤ 236 / 100 := by
  have h : ∀ v ∈ norm2, 1098 * |v.1| + (1098 + 750) * |v.2| ≤ 236000000 := by decide +kernel
  intro v hv
  have : (1098 : ℚ) * |(v.1 : ℚ)| + (1098 + 750) * |(v.2 : ℚ)| ≤ 236000000 := by
    exact_mod_cast h v hv
  linarith

theorem norm1_tail : ∀ v ∈ norm1, |(v.1 : ℚ)| * (1 / 1000) +
    |(v.2 : ℚ)| * (1 / 1000 + 1617 / 1000000 / 2) ≤ 285 / 100 := by
  have h : ∀ v ∈ norm1, 2000 * |v.1| + (2000 + 1617) * |v.2| ≤ 5700000 := by decide +kernel
  intro v hv
  have : (2000 : ℚ) * |(v.1 : ℚ)| + (2000 + 1617) * |(v.2 : ℚ)| ≤ 5700000 := by
    exact_mod_cast h v hv
  linarith

theorem odd_abs {h : ℤ} (hh : h % 2 = 1) : (1 : ℚ) ≤ |(h : ℚ)| := by
  have : (1 : ℤ) ≤ |h| := Int.one_le_abs (by omega)
  exact_mod_cast this

theorem norm2_end (j k : ℕ) (f h : ℤ) (hj : j < k + 1 + k) (hf : f % 2 = 1) (hh : h % 2 = 1) :
    ¬ Inside norm2 (96000 / (151 / 204) ^ j) f (2 ^ k * h) := by
  intro hin
  have hB : (96000 : ℚ) / (151 / 204) ^ j ≤ 96000 / (151 / 204) ^ (2 * k) := by
    refine div_le_div_of_nonneg_left (by norm_num) (by positivity) ?_
    exact pow_le_pow_of_le_one (by norm_num) (by norm_num) (by omega)
  have hin' : Inside norm2 (96000 / (151 / 204) ^ (2 * k)) f (2 ^ k * h) :=
    fun v hv => (hin v hv).trans hB
  rcases Nat.eq_zero_or_pos k with rfl | hk
  · simp only [pow_zero, one_mul, mul_zero, div_one] at hin'
    obtain ⟨h1, h2⟩ := norm2_fg hin'
    have hf1 : |f| < 3 := by
      have : |(f : ℚ)| < 3 := lt_of_le_of_lt h1 (by norm_num)
      exact_mod_cast this
    have hh1 : |h| < 3 := by
      have : |(h : ℚ)| < 3 := lt_of_le_of_lt h2 (by norm_num)
      exact_mod_cast this
    rw [abs_lt] at hf1 hh1
    have a1 := hin' (33229, 66771) (by decide)
    have a2 := hin' (-34024, 106270) (by decide)
    have hf2 : f = 1 ∨ f = -1 := by omega
    have hh2 : h = 1 ∨ h = -1 := by omega
    rcases hf2 with rfl | rfl <;> rcases hh2 with rfl | rfl <;>
      first | (norm_num at a1; done) | (norm_num at a2; done)
  · obtain ⟨-, h2⟩ := norm2_fg hin'
    have p2 : (0 : ℚ) < 2 ^ k := by positivity
    push_cast at h2
    rw [abs_mul, abs_of_pos p2] at h2
    have h3 : (2 : ℚ) ^ k ≤ 1098 / 100000000 * (96000 / (151 / 204) ^ (2 * k)) :=
      (le_mul_of_one_le_right p2.le (odd_abs hh)).trans h2
    have h4 : ((2 : ℚ) * (151 / 204) ^ 2) ^ k ≤ 1098 / 100000000 * 96000 := by
      rw [mul_pow, ← pow_mul]
      have p3 : (0 : ℚ) < (151 / 204) ^ (2 * k) := by positivity
      rw [← mul_div_assoc, le_div_iff₀ p3] at h3
      exact h3
    have h5 : ((2 : ℚ) * (151 / 204) ^ 2) ^ 1 ≤ ((2 : ℚ) * (151 / 204) ^ 2) ^ k :=
      pow_le_pow_right₀ (by norm_num) hk
    norm_num at h4 h5
    linarith

theorem norm1_end (j k : ℕ) (f h : ℤ) (hj : j < k + 1 + (k + 1)) (hh : h % 2 = 1) :
    ¬ Inside norm1 (760 / (63 / 80) ^ j) f (2 ^ k * h) := by
  intro hin
  have hB : (760 : ℚ) / (63 / 80) ^ j ≤ 760 / (63 / 80) ^ (2 * k + 1) := by
    refine div_le_div_of_nonneg_left (by norm_num) (by positivity) ?_
    exact pow_le_pow_of_le_one (by norm_num) (by norm_num) (by omega)
  have hin' : Inside norm1 (760 / (63 / 80) ^ (2 * k + 1)) f (2 ^ k * h) :=
    fun v hv => (hin v hv).trans hB
  obtain ⟨-, h2⟩ := norm1_fg hin'
  have p2 : (0 : ℚ) < 2 ^ k := by positivity
  push_cast at h2
  rw [abs_mul, abs_of_pos p2] at h2
  have h3 : (2 : ℚ) ^ k ≤ 1 / 1000 * (760 / (63 / 80) ^ (2 * k + 1)) :=
    (le_mul_of_one_le_right p2.le (odd_abs hh)).trans h2
  have h4 : ((2 : ℚ) * (63 / 80) ^ 2) ^ k * (63 / 80) ≤ 1 / 1000 * 760 := by
    have p3 : (0 : ℚ) < (63 / 80) ^ (2 * k + 1) := by positivity
    rw [← mul_div_assoc, le_div_iff₀ p3] at h3
    rw [mul_pow, ← pow_mul, mul_assoc, ← pow_succ]
    exact h3
  have h5 : (1 : ℚ) ≤ ((2 : ℚ) * (63 / 80) ^ 2) ^ k := one_le_pow₀ (by norm_num)
  linarith

theorem check_at {P : ℕ → Bool} (h : (List.range 20).all P = true) {k : ℕ} (hk : k < 20) :
    P k = true := List.all_eq_true.mp h k (List.mem_range.mpr hk)

/-- 590 steps of the constant-time variant. -/
theorem reach2 {f g : ℤ} (hf : f % 2 = 1) (hg0 : 0 ≤ g) (hgf : g ≤ f) (hf2 : f ≤ 2 ^ 256) :
    (run 2 590 ⟨-1, f, g⟩).g = 0 := by
  refine reach_zero (N := norm2) (κ := 2) (ρ := 151 / 204) (b := 96000) (by norm_num) (fun k => k)
    (fun k => by push_cast; ring) (by norm_num) ?_ ?_ 590 f g hf ?_
  · intro B k f h c g' hin hc1 hc2 hg
    rcases lt_or_ge k 20 with hk | hk
    · have hc := check_at norm2_check hk
      rw [Bool.and_eq_true] at hc
      have := round_inside (by norm_num) hc.1 hc.2 hin hc1 hc2 hg
      simpa using this
    · obtain ⟨h1, h2⟩ := norm2_fg hin
      exact round_tail (le_refl k) (inside_nonneg (by decide) hin) (by norm_num) h1 h2 norm2_tail
        (tail2 k hk) hc1 hc2 hg
  · exact norm2_end
  · intro v hv
    have hv1 : |v.1| ≤ 100000 ∧ |v.1 + v.2| ≤ 100000 := by
      have : ∀ v ∈ norm2, |v.1| ≤ 100000 ∧ |v.1 + v.2| ≤ 100000 := by decide +kernel
      exact this v hv
    have hz : |v.1 * f + v.2 * g| ≤ 100000 * 2 ^ 256 := by
      rw [abs_le, abs_le] at hv1
      have h1 : 0 ≤ f - g := by omega
      have e : v.1 * f + v.2 * g = v.1 * (f - g) + (v.1 + v.2) * g := by ring
      rw [e, abs_le]
      constructor
      · nlinarith [mul_le_mul_of_nonneg_right hv1.1.1 h1, mul_le_mul_of_nonneg_right hv1.2.1 hg0]
      · nlinarith [mul_le_mul_of_nonneg_right hv1.1.2 h1, mul_le_mul_of_nonneg_right hv1.2.2 hg0]
    have hzq : |((v.1 * f + v.2 * g : ℤ) : ℚ)| ≤ 100000 * 2 ^ 256 := by exact_mod_cast hz
    refine hzq.trans ?_
    rw [le_div_iff₀ (by positivity), div_pow, ← mul_div_assoc, div_le_iff₀ (by positivity)]
    have : (100000 * 2 ^ 256 * 151 ^ 590 : ℕ) ≤ 96000 * 204 ^ 590 := by decide +kernel
    exact_mod_cast this

/-- 744 steps of the variable-time variant. -/
theorem reach1 {f g : ℤ} (hf : f % 2 = 1) (hg0 : 0 ≤ g) (hgf : g ≤ f) (hf2 : f ≤ 2 ^ 256) :
    (run 1 744 ⟨-1, f, g⟩).g = 0 := by
  refine reach_zero (N := norm1) (κ := 1) (ρ := 63 / 80) (b := 760) (by norm_num) (fun k => k + 1)
    (fun k => by push_cast; ring) (by norm_num) ?_ ?_ 744 f g hf ?_
  · intro B k f h c g' hin hc1 hc2 hg
    rcases lt_or_ge k 20 with hk | hk
    · have hc := check_at norm1_check hk
      rw [Bool.and_eq_true] at hc
      have := round_inside (by norm_num) hc.1 hc.2 hin hc1 hc2 hg
      simpa using this
    · obtain ⟨h1, h2⟩ := norm1_fg hin
      exact round_tail (Nat.le_succ k) (inside_nonneg (by decide) hin) (by norm_num) h1 h2
        norm1_tail (tail1 k hk) hc1 hc2 hg
  · intro j k f h hj _ hh
    exact norm1_end j k f h hj hh
  · intro v hv
    have hv1 : |v.1| ≤ 1000 ∧ |v.1 + v.2| ≤ 1000 := by
      have : ∀ v ∈ norm1, |v.1| ≤ 1000 ∧ |v.1 + v.2| ≤ 1000 := by decide +kernel
      exact this v hv
    have hz : |v.1 * f + v.2 * g| ≤ 1000 * 2 ^ 256 := by
      rw [abs_le, abs_le] at hv1
      have h1 : 0 ≤ f - g := by omega
      have e : v.1 * f + v.2 * g = v.1 * (f - g) + (v.1 + v.2) * g := by ring
      rw [e, abs_le]
      constructor
      · nlinarith [mul_le_mul_of_nonneg_right hv1.1.1 h1, mul_le_mul_of_nonneg_right hv1.2.1 hg0]
      · nlinarith [mul_le_mul_of_nonneg_right hv1.1.2 h1, mul_le_mul_of_nonneg_right hv1.2.2 hg0]
    have hzq : |((v.1 * f + v.2 * g : ℤ) : ℚ)| ≤ 1000 * 2 ^ 256 := by exact_mod_cast hz
    refine hzq.trans ?_
    rw [le_div_iff₀ (by positivity), div_pow, ← mul_div_assoc, div_le_iff₀ (by positivity)]
    have : (1000 * 2 ^ 256 * 63 ^ 744 : ℕ) ≤ 760 * 80 ^ 744 := by decide +kernel
    exact_mod_cast this

end Secp.Divstep
