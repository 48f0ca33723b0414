import Verif.Model.Int128Struct

/-!
# C61: the portable count of trailing zeros is exact

`secp256k1_ctz32_var_debruijn` and `secp256k1_ctz64_var_debruijn` (util.h:338-361) replace the compiler
builtin where there is none.  The table access is never out of bounds and the result is the number of
trailing zero bits.
-/

namespace Secp

open Model

/-- `x & -x` is the lowest set bit of `x`. -/
theorem and_neg_eq {w k q : ℕ} (h : 2 ^ k * (2 * q + 1) < 2 ^ w) :
    2 ^ k * (2 * q + 1) &&& (2 ^ w - 2 ^ k * (2 * q + 1)) % 2 ^ w = 2 ^ k := by
  have hk : 0 < 2 ^ k := by positivity
  obtain ⟨y, hy⟩ : ∃ y, 2 ^ k * (2 * q + 1) = y + 1 := ⟨2 ^ k * (2 * q + 1) - 1, by
    have : 1 ≤ 2 ^ k * (2 * q + 1) := Nat.mul_pos hk (by omega)
    omega⟩
  have hy' : y = 2 ^ k * (2 * q) + (2 ^ k - 1) := by
    have : 2 ^ k * (2 * q + 1) = 2 ^ k * (2 * q) + 2 ^ k := by ring
    omega
  rw [Nat.mod_eq_of_lt (by omega)]
  have hkw : k < w := by
    by_contra hc
    have h1 : 2 ^ w ≤ 2 ^ k := Nat.pow_le_pow_right (by norm_num) (by omega)
    have h2 : 2 ^ k ≤ 2 ^ k * (2 * q + 1) := Nat.le_mul_of_pos_right _ (by omega)
    omega
  apply Nat.eq_of_testBit_eq
  intro i
  rw [Nat.testBit_and, Nat.testBit_two_pow]
  have e1 : (2 ^ w - 2 ^ k * (2 * q + 1)).testBit i = (decide (i < w) && !y.testBit i) := by
    rw [hy]
    exact Nat.testBit_two_pow_sub_succ (by omega) i
  rw [e1, hy', Nat.testBit_two_pow_mul_add _ (by omega), Nat.testBit_two_pow_mul]
  rcases lt_trichotomy i k with hi | hi | hi
  · have h1 : ¬ i ≥ k := by omega
    have h2 : ¬ k = i := by omega
    simp [h1, h2]
  · subst hi
    have h1 : ¬ i < i := by omega
    simp [hkw, Nat.testBit_zero]
  · have h1 : i ≥ k := by omega
    have h2 : ¬ i < k := by omega
    have h3 : ¬ k = i := by omega
    obtain ⟨j, hj⟩ : ∃ j, i - k = j + 1 := ⟨i - k - 1, by omega⟩
    rw [if_neg h2, hj, Nat.testBit_succ, Nat.testBit_succ,
      show (2 * q + 1) / 2 = q by omega, show 2 * q / 2 = q by omega]
    cases q.testBit j <;> simp [h3]

theorem exists_odd_part {x : ℕ} (h : x ≠ 0) : ∃ k q, x = 2 ^ k * (2 * q + 1) := by
  obtain ⟨k, m, hm, e⟩ := Nat.exists_eq_two_pow_mul_odd h
  obtain ⟨q, rfl⟩ := hm
  exact ⟨k, q, e⟩

theorem lt_of_pow_mul_lt {k q w : ℕ} (h : 2 ^ k * (2 * q + 1) < 2 ^ w) : k < w := by
  have : 2 ^ k < 2 ^ w := lt_of_le_of_lt (Nat.le_mul_of_pos_right _ (by omega)) h
  exact (Nat.pow_lt_pow_iff_right (by norm_num)).mp this

theorem trailing {k q : ℕ} : 2 ^ k ∣ 2 ^ k * (2 * q + 1) ∧ ¬ 2 ^ (k + 1) ∣ 2 ^ k * (2 * q + 1) := by
  refine ⟨Dvd.intro _ rfl, fun ⟨c, hc⟩ => ?_⟩
  rw [pow_succ, mul_assoc] at hc
  have := Nat.eq_of_mul_eq_mul_left (by positivity) hc
  omega

/-- For every non-zero 32-bit number the result is the exponent of 2 in it. -/
theorem C61_ctz32 {x : ℕ} (h0 : x ≠ 0) (hx : x < 2 ^ 32) :
    ∃ k, ctz32Debruijn x = some k ∧ 2 ^ k ∣ x ∧ ¬ 2 ^ (k + 1) ∣ x := by
  obtain ⟨k, q, rfl⟩ := exists_odd_part h0
  have hk := lt_of_pow_mul_lt hx
  refine ⟨k, ?_, trailing⟩
  unfold ctz32Debruijn u32
  rw [and_neg_eq hx]
  have key : ∀ k < 32, debruijn32[(2 ^ k * 0x04D7651F % 2 ^ 32) >>> 27]? = some k := by decide +kernel
  exact key k hk

/-- For every non-zero 64-bit number the result is the exponent of 2 in it. -/
theorem C61_ctz64 {x : ℕ} (h0 : x ≠ 0) (hx : x < 2 ^ 64) :
    ∃ k, ctz64Debruijn x = some k ∧ 2 ^ k ∣ x ∧ ¬ 2 ^ (k + 1) ∣ x := by
  obtain ⟨k, q, rfl⟩ := exists_odd_part h0
  have hk := lt_of_pow_mul_lt hx
  refine ⟨k, ?_, trailing⟩
  unfold ctz64Debruijn u64
  rw [and_neg_eq hx]
  have key : ∀ k < 64, debruijn64[(2 ^ k * 0x022FDD63CC95386D % 2 ^ 64) >>> 58]? = some k := by
    decide +kernel
  exact key k hk

/-- The builtin used by the rest of the model and the portable code agree. -/
theorem C61_agree {x : ℕ} (h0 : x ≠ 0) (hx : x < 2 ^ 64) : ctz64Debruijn x = some (ctz64 x) := by
  obtain ⟨k, q, rfl⟩ := exists_odd_part h0
  have hk := lt_of_pow_mul_lt hx
  obtain ⟨j, e, hj, hj'⟩ := C61_ctz64 h0 hx
  have hjk : j = k := by
    obtain ⟨h1, h2⟩ := @trailing k q
    rcases lt_trichotomy j k with h | h | h
    · exact absurd ((pow_dvd_pow 2 (show j + 1 ≤ k by omega)).trans h1) hj'
    · exact h
    · exact absurd ((pow_dvd_pow 2 (show k + 1 ≤ j by omega)).trans hj) h2
  rw [e, hjk]
  have key : ∀ n k : ℕ, k < n → ctzUpTo n (2 ^ k * (2 * q + 1)) = k := by
    intro n
    induction n with
    | zero => intro k h; omega
    | succ n ih =>
      intro k h
      unfold ctzUpTo
      cases k with
      | zero => rw [if_pos (by omega)]
      | succ k =>
        rw [pow_succ, show 2 ^ k * 2 * (2 * q + 1) = 2 * (2 ^ k * (2 * q + 1)) by ring,
          if_neg (by omega), Nat.mul_div_cancel_left _ (by norm_num), ih k (by omega)]
  rw [show ctz64 = ctzUpTo 64 from rfl, key 64 k hk]

example : ctz64Debruijn (2 ^ 63) = some 63 ∧ ctz64Debruijn (2 ^ 64 - 2 ^ 20) = some 20 ∧
    ctz32Debruijn 0xFFFF0000 = some 16 := by decide +kernel

end Secp
