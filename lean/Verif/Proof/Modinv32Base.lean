import Verif.Spec.Signed30
import Verif.Proof.Modinv64Var
import Verif.Proof.Scalar8x32Ops

/-!
Helpers for the 32-bit inversion: conversions, masks and congruences of words.
-/

namespace Secp.Model.M32

theorem toU32_lt (x : ℤ) : toU32 x < 2 ^ 32 := by unfold toU32; omega

theorem toU32_cast (x : ℤ) : ((toU32 x : ℕ) : ℤ) = x % 2 ^ 32 := by unfold toU32; omega

theorem toI32_toU32 {x : ℤ} (h1 : -2 ^ 31 ≤ x) (h2 : x < 2 ^ 31) : toI32 (toU32 x : ℕ) = x := by
  rw [toU32_cast]; unfold toI32; omega

theorem toU32_neg_one : toU32 (-1) = 2 ^ 32 - 1 := by decide

theorem toU32_zero : toU32 0 = 0 := by decide

theorem sign_neg {x : ℤ} (h1 : -2 ^ 31 ≤ x) (h : x < 0) : x / 2 ^ 31 = -1 := by omega

theorem sign_nonneg {x : ℤ} (h : 0 ≤ x) (h2 : x < 2 ^ 31) : x / 2 ^ 31 = 0 := by omega

theorem and32_neg_one {x : ℤ} (h1 : -2 ^ 31 ≤ x) (h2 : x < 2 ^ 31) : and32 x (-1) = x := by
  unfold and32
  rw [toU32_neg_one, land_ones32 (toU32_lt x), toI32_toU32 h1 h2]

theorem and32_zero (x : ℤ) : and32 x 0 = 0 := by
  unfold and32
  rw [toU32_zero, Nat.and_zero]
  decide

theorem xor32_zero {x : ℤ} (h1 : -2 ^ 31 ≤ x) (h2 : x < 2 ^ 31) : xor32 x 0 = x := by
  unfold xor32
  rw [toU32_zero, Nat.xor_zero, toI32_toU32 h1 h2]

theorem xor32_neg_one {x : ℤ} (h1 : -2 ^ 31 ≤ x) (h2 : x < 2 ^ 31) : xor32 x (-1) = -x - 1 := by
  unfold xor32
  rw [toU32_neg_one, xor_ones32 (toU32_lt x)]
  have := toU32_cast x
  have := toU32_lt x
  unfold toI32
  omega

theorem land_m30 (x : ℕ) : x &&& m30 = x % 2 ^ 30 := Nat.and_two_pow_sub_one_eq_mod x 30

theorem and32_m30 (x : ℤ) : and32 x m30 = x % 2 ^ 30 := by
  unfold and32
  rw [show toU32 ((m30 : ℕ) : ℤ) = m30 by decide, land_m30]
  have := toU32_cast x
  have h2 : ((toU32 x % 2 ^ 30 : ℕ) : ℤ) = x % 2 ^ 30 := by omega
  rw [h2]
  unfold toI32
  omega

theorem or32_eq_zero {a b : ℤ} (ha1 : -2 ^ 31 ≤ a) (ha2 : a < 2 ^ 31) (hb1 : -2 ^ 31 ≤ b)
    (hb2 : b < 2 ^ 31) : or32 a b = 0 ↔ a = 0 ∧ b = 0 := by
  unfold or32
  have hlt : toU32 a ||| toU32 b < 2 ^ 32 := Nat.or_lt_two_pow (toU32_lt a) (toU32_lt b)
  have h1 := toU32_cast a
  have h2 := toU32_cast b
  constructor
  · intro h
    have h0 : toU32 a ||| toU32 b = 0 := by unfold toI32 at h; omega
    rw [Nat.or_eq_zero_iff] at h0
    omega
  · rintro ⟨rfl, rfl⟩
    decide

theorem or32_range (a b : ℤ) : -2 ^ 31 ≤ or32 a b ∧ or32 a b < 2 ^ 31 := by
  unfold or32 toI32; omega

theorem xor32_range (a b : ℤ) : -2 ^ 31 ≤ xor32 a b ∧ xor32 a b < 2 ^ 31 := by
  unfold xor32 toI32; omega

/-! ### Words congruent to integers -/

theorem u32_lt' (x : ℕ) : u32 x < 2 ^ 32 := Nat.mod_lt _ (by norm_num)

theorem _root_.Secp.Model.Cong.u32 {k a : ℕ} {x : ℤ} (h : Cong k a x) (hk : k ≤ 32) :
    Cong k (Model.u32 a) x := by
  unfold Model.u32
  refine Int.ModEq.trans ?_ h
  have h32 : ((a % 2 ^ 32 : ℕ) : ℤ) ≡ a [ZMOD 2 ^ 32] := by
    push_cast
    exact Int.mod_modEq _ _
  exact Int.ModEq.of_dvd (pow_dvd_pow 2 hk) h32

theorem _root_.Secp.Model.Cong.neg32 {k a : ℕ} {x : ℤ} (h : Cong k a x) (ha : a ≤ 2 ^ 32)
    (hk : k ≤ 32) : Cong k (2 ^ 32 - a) (-x) := by
  have h0 : Cong k (2 ^ 32) 0 := by
    unfold Cong
    exact (Int.modEq_zero_iff_dvd).mpr (by exact_mod_cast pow_dvd_pow 2 hk)
  unfold Cong
  rw [Nat.cast_sub ha]
  have := Int.ModEq.sub h0 h
  simpa using this

theorem cong_toU32 (x : ℤ) {k : ℕ} (hk : k ≤ 32) : Cong k (toU32 x) x := by
  unfold Cong
  rw [toU32_cast]
  exact Int.ModEq.of_dvd (pow_dvd_pow 2 hk) (Int.mod_modEq _ _)

/-- A word that agrees in all bits with a signed number is its representation. -/
theorem _root_.Secp.Model.Cong.toI32 {a : ℕ} {x : ℤ} (h : Cong 32 a x) (h1 : -2 ^ 31 ≤ x)
    (h2 : x < 2 ^ 31) : Model.toI32 a = x := by
  unfold Cong Int.ModEq at h
  unfold Model.toI32
  omega

theorem _root_.Secp.Model.Cong.dbl32 {a : ℕ} {x : ℤ} (h : Cong 32 a x) :
    Cong 32 (Model.u32 (a <<< 1)) (2 * x) := by
  refine Cong.u32 ?_ (le_refl _)
  rw [Nat.shiftLeft_eq]
  exact (h.mul (Cong.of_eq (x := 2) (by norm_num))).congr (by ring)

end Secp.Model.M32
