import Verif.Spec.Int128

/-!
# The emulated 128-bit products
-/

namespace Secp

open Model

theorem umul128_spec {a b : ℕ} (ha : a < 2 ^ 64) (hb : b < 2 ^ 64) :
    (umul128 a b).2 * 2 ^ 64 + (umul128 a b).1 = a * b ∧
      (umul128 a b).1 < 2 ^ 64 ∧ (umul128 a b).2 < 2 ^ 64 := by
  unfold umul128 u64 u32
  simp only [Nat.shiftRight_eq_div_pow, Nat.shiftLeft_eq]
  obtain ⟨a1, a0, h0, h1, rfl⟩ : ∃ a1 a0, a0 < 2 ^ 32 ∧ a1 < 2 ^ 32 ∧ a = a1 * 2 ^ 32 + a0 :=
    ⟨a / 2 ^ 32, a % 2 ^ 32, by omega, by omega, by omega⟩
  obtain ⟨b1, b0, k0, k1, rfl⟩ : ∃ a1 a0, a0 < 2 ^ 32 ∧ a1 < 2 ^ 32 ∧ b = a1 * 2 ^ 32 + a0 :=
    ⟨b / 2 ^ 32, b % 2 ^ 32, by omega, by omega, by omega⟩
  rw [show (a1 * 2 ^ 32 + a0) % 2 ^ 32 = a0 by omega,
    show (b1 * 2 ^ 32 + b0) % 2 ^ 32 = b0 by omega,
    show (a1 * 2 ^ 32 + a0) / 2 ^ 32 = a1 by omega,
    show (b1 * 2 ^ 32 + b0) / 2 ^ 32 = b1 by omega,
    show (a1 * 2 ^ 32 + a0) * (b1 * 2 ^ 32 + b0) =
      (a1 * b1) * 2 ^ 64 + (a0 * b1) * 2 ^ 32 + (a1 * b0) * 2 ^ 32 + a0 * b0 by ring]
  have q : ∀ x y : ℕ, x < 2 ^ 32 → y < 2 ^ 32 → x * y ≤ (2 ^ 32 - 1) * (2 ^ 32 - 1) :=
    fun x y hx hy => Nat.mul_le_mul (by omega) (by omega)
  have q1 := q _ _ h0 k0
  have q2 := q _ _ h0 k1
  have q3 := q _ _ h1 k0
  have q4 := q _ _ h1 k1
  clear q ha hb
  generalize a0 * b0 = ll at *
  generalize a0 * b1 = lh at *
  generalize a1 * b0 = hl at *
  generalize a1 * b1 = hh at *
  clear h0 h1 k0 k1
  rw [show ll % 2 ^ 64 = ll by omega, show lh % 2 ^ 64 = lh by omega,
    show hl % 2 ^ 64 = hl by omega, show hh % 2 ^ 64 = hh by omega]
  obtain ⟨l1, l0, g0, rfl⟩ : ∃ l1 l0 : ℕ, l0 < 2 ^ 32 ∧ lh = l1 * 2 ^ 32 + l0 :=
    ⟨lh / 2 ^ 32, lh % 2 ^ 32, by omega, by omega⟩
  obtain ⟨m1, m0, f0, rfl⟩ : ∃ l1 l0 : ℕ, l0 < 2 ^ 32 ∧ hl = l1 * 2 ^ 32 + l0 :=
    ⟨hl / 2 ^ 32, hl % 2 ^ 32, by omega, by omega⟩
  obtain ⟨z1, z0, j0, rfl⟩ : ∃ l1 l0 : ℕ, l0 < 2 ^ 32 ∧ ll = l1 * 2 ^ 32 + l0 :=
    ⟨ll / 2 ^ 32, ll % 2 ^ 32, by omega, by omega⟩
  have e1 : ∀ x1 x0 : ℕ, x0 < 2 ^ 32 → (x1 * 2 ^ 32 + x0) / 2 ^ 32 = x1 := by intros; omega
  have e0 : ∀ x1 x0 : ℕ, x0 < 2 ^ 32 → (x1 * 2 ^ 32 + x0) % 2 ^ 32 = x0 := by intros; omega
  rw [e1 _ _ g0, e1 _ _ f0, e1 _ _ j0, e0 _ _ g0, e0 _ _ f0, e0 _ _ j0,
    show (z1 + l0) % 2 ^ 64 = z1 + l0 by omega,
    show (z1 + l0 + m0) % 2 ^ 64 = z1 + l0 + m0 by omega,
    show (hh + l1) % 2 ^ 64 = hh + l1 by omega]
  obtain ⟨s1, s0, i0, hs⟩ : ∃ s1 s0 : ℕ, s0 < 2 ^ 32 ∧ z1 + l0 + m0 = s1 * 2 ^ 32 + s0 :=
    ⟨(z1 + l0 + m0) / 2 ^ 32, (z1 + l0 + m0) % 2 ^ 32, by omega, by omega⟩
  rw [hs, e1 _ _ i0, show (s1 * 2 ^ 32 + s0) * 2 ^ 32 % 2 ^ 64 = s0 * 2 ^ 32 by omega,
    show (s0 * 2 ^ 32 + z0) % 2 ^ 64 = s0 * 2 ^ 32 + z0 by omega]
  refine ⟨?_, ?_, Nat.mod_lt _ (by norm_num)⟩
  · rw [Nat.mod_eq_of_lt (a := hh + l1 + m1) (by omega), Nat.mod_eq_of_lt (by omega)]
    zify at hs ⊢
    linear_combination (-2 ^ 32 : ℤ) * hs
  · omega

theorem mul128_low (x1 x0 : ℤ) (_ : 0 ≤ x0) (_ : x0 < 2 ^ 32) :
    u32 (toU64 (x1 * 2 ^ 32 + x0)) = x0.toNat := by
  unfold u32 toU64
  omega

theorem mul128_high (x1 x0 : ℤ) (_ : 0 ≤ x0) (_ : x0 < 2 ^ 32) : (x1 * 2 ^ 32 + x0) / 2 ^ 32 = x1 := by
  omega

theorem toI64_wrap (x : ℤ) (k : ℕ) (h : -2 ^ 63 ≤ x ∧ x + k < 2 ^ 63) :
    toI64 (u64 (toU64 x + k) : ℕ) = x + k := by
  unfold toI64 u64 toU64
  omega

theorem toU64_toI64_nat {x : ℕ} (h : x < 2 ^ 64) : toU64 (toI64 (x : ℕ)) = x := by
  unfold toI64 toU64
  omega

theorem mul128_spec {a b : ℤ} (ha : IsI64 a) (hb : IsI64 b) :
    ∃ lo hi, mul128 a b = some (lo, hi) ∧ hi * 2 ^ 64 + (toU64 lo : ℤ) = a * b ∧
      -2 ^ 62 ≤ hi ∧ hi ≤ 2 ^ 62 := by
  obtain ⟨a1, a0, h0, h0', h1, h1', rfl⟩ : ∃ a1 a0 : ℤ, 0 ≤ a0 ∧ a0 < 2 ^ 32 ∧ -2 ^ 31 ≤ a1 ∧
      a1 < 2 ^ 31 ∧ a = a1 * 2 ^ 32 + a0 := by
    refine ⟨a / 2 ^ 32, a % 2 ^ 32, ?_⟩
    unfold IsI64 at ha
    omega
  obtain ⟨b1, b0, k0, k0', k1, k1', rfl⟩ : ∃ a1 a0 : ℤ, 0 ≤ a0 ∧ a0 < 2 ^ 32 ∧ -2 ^ 31 ≤ a1 ∧
      a1 < 2 ^ 31 ∧ b = a1 * 2 ^ 32 + a0 := by
    refine ⟨b / 2 ^ 32, b % 2 ^ 32, ?_⟩
    unfold IsI64 at hb
    omega
  have q1 : 0 ≤ a0 * b0 ∧ a0 * b0 ≤ (2 ^ 32 - 1) * (2 ^ 32 - 1) :=
    ⟨Int.mul_nonneg h0 k0, by nlinarith⟩
  have q2 : -(2 ^ 31 * (2 ^ 32 - 1)) ≤ a0 * b1 ∧ a0 * b1 ≤ (2 ^ 31 - 1) * (2 ^ 32 - 1) := by
    constructor <;> nlinarith
  have q3 : -(2 ^ 31 * (2 ^ 32 - 1)) ≤ a1 * b0 ∧ a1 * b0 ≤ (2 ^ 31 - 1) * (2 ^ 32 - 1) := by
    constructor <;> nlinarith
  have q4 : -(2 ^ 31 * (2 ^ 31 - 1)) ≤ a1 * b1 ∧ a1 * b1 ≤ 2 ^ 31 * 2 ^ 31 := by
    constructor <;> nlinarith
  unfold mul128
  rw [mul128_low _ _ h0 h0', mul128_low _ _ k0 k0', mul128_high _ _ h0 h0', mul128_high _ _ k0 k0', Int.toNat_of_nonneg h0,
    Int.toNat_of_nonneg k0]
  have hll : (a0.toNat * b0.toNat : ℕ) = (a0 * b0).toNat := by
    rw [Int.toNat_mul h0 k0]
  rw [hll, show (a1 * 2 ^ 32 + a0) * (b1 * 2 ^ 32 + b0) =
      (a1 * b1) * 2 ^ 64 + (a0 * b1) * 2 ^ 32 + (a1 * b0) * 2 ^ 32 + a0 * b0 by ring]
  have hfit : ∀ x : ℤ, -2 ^ 63 ≤ x ∧ x < 2 ^ 63 → i64? x = some x := fun x h => if_pos h
  have hab : -2 ^ 126 ≤ (a1 * b1) * 2 ^ 64 + (a0 * b1) * 2 ^ 32 + (a1 * b0) * 2 ^ 32 + a0 * b0 ∧
      (a1 * b1) * 2 ^ 64 + (a0 * b1) * 2 ^ 32 + (a1 * b0) * 2 ^ 32 + a0 * b0 ≤ 2 ^ 126 := by
    rw [show (a1 * b1) * 2 ^ 64 + (a0 * b1) * 2 ^ 32 + (a1 * b0) * 2 ^ 32 + a0 * b0 =
      (a1 * 2 ^ 32 + a0) * (b1 * 2 ^ 32 + b0) by ring]
    unfold IsI64 at ha hb
    generalize a1 * 2 ^ 32 + a0 = a at *
    generalize b1 * 2 ^ 32 + b0 = b at *
    constructor <;> nlinarith
  clear ha hb hll
  generalize a0 * b0 = ll at *
  generalize a0 * b1 = lh at *
  generalize a1 * b0 = hl at *
  generalize a1 * b1 = hh at *
  obtain ⟨l1, l0, g0, g0', rfl⟩ : ∃ l1 l0 : ℤ, 0 ≤ l0 ∧ l0 < 2 ^ 32 ∧ lh = l1 * 2 ^ 32 + l0 :=
    ⟨lh / 2 ^ 32, lh % 2 ^ 32, by omega, by omega, by omega⟩
  obtain ⟨m1, m0, f0, f0', rfl⟩ : ∃ l1 l0 : ℤ, 0 ≤ l0 ∧ l0 < 2 ^ 32 ∧ hl = l1 * 2 ^ 32 + l0 :=
    ⟨hl / 2 ^ 32, hl % 2 ^ 32, by omega, by omega, by omega⟩
  obtain ⟨z, rfl⟩ : ∃ z : ℕ, ll = z := ⟨ll.toNat, (Int.toNat_of_nonneg q1.1).symm⟩
  dsimp only
  rw [Int.toNat_natCast, hfit _ (by omega), Option.bind_some, hfit _ (by omega), Option.bind_some,
    hfit hh (by omega), Option.bind_some, mul128_high _ _ g0 g0', mul128_high _ _ f0 f0', mul128_low _ _ g0 g0',
    mul128_low _ _ f0 f0', hfit (hh + l1) (by omega), Option.bind_some, hfit _ (by omega),
    Option.bind_some]
  obtain ⟨w, rfl⟩ : ∃ z : ℕ, l0 = z := ⟨l0.toNat, (Int.toNat_of_nonneg g0).symm⟩
  obtain ⟨y, rfl⟩ : ∃ z : ℕ, m0 = z := ⟨m0.toNat, (Int.toNat_of_nonneg f0).symm⟩
  rw [Int.toNat_natCast, Int.toNat_natCast]
  have hz : z < 2 ^ 64 := by omega
  rw [show u64 z = z from Nat.mod_eq_of_lt hz]
  simp only [Nat.shiftRight_eq_div_pow, Nat.shiftLeft_eq]
  obtain ⟨z1, z0, j0, rfl⟩ : ∃ l1 l0 : ℕ, l0 < 2 ^ 32 ∧ z = l1 * 2 ^ 32 + l0 :=
    ⟨z / 2 ^ 32, z % 2 ^ 32, by omega, by omega⟩
  rw [show (z1 * 2 ^ 32 + z0) / 2 ^ 32 = z1 by omega,
    show u32 (z1 * 2 ^ 32 + z0) = z0 by unfold u32; omega,
    show u64 (u64 (z1 + w) + y) = z1 + w + y by unfold u64; omega]
  obtain ⟨s1, s0, i0, hs⟩ : ∃ l1 l0 : ℕ, l0 < 2 ^ 32 ∧ z1 + w + y = l1 * 2 ^ 32 + l0 :=
    ⟨(z1 + w + y) / 2 ^ 32, (z1 + w + y) % 2 ^ 32, by omega, by omega⟩
  rw [hs, show (s1 * 2 ^ 32 + s0) / 2 ^ 32 = s1 by omega,
    show u64 (u64 ((s1 * 2 ^ 32 + s0) * 2 ^ 32) + z0) = s0 * 2 ^ 32 + z0 by unfold u64; omega]
  rw [toI64_wrap _ s1 (by omega)]
  have hs' : (z1 : ℤ) + w + y = s1 * 2 ^ 32 + s0 := by exact_mod_cast hs
  simp only [Nat.cast_add, Nat.cast_mul, Nat.cast_pow, Nat.cast_ofNat] at hab
  have hl1 : (toU64 (toI64 (s0 * 2 ^ 32 + z0 : ℕ)) : ℤ) = s0 * 2 ^ 32 + z0 := by
    rw [toU64_toI64_nat (by clear * - i0 j0; omega), Nat.cast_add, Nat.cast_mul, Nat.cast_pow,
      Nat.cast_ofNat]
  have hs0 : (s0 : ℤ) < 2 ^ 32 := by exact_mod_cast i0
  have hz0 : (z0 : ℤ) < 2 ^ 32 := by exact_mod_cast j0
  have hs1 : (0 : ℤ) ≤ s0 := Int.natCast_nonneg _
  have hz1 : (0 : ℤ) ≤ z0 := Int.natCast_nonneg _
  have hval : (hh + l1 + m1 + s1) * 2 ^ 64 + ((s0 : ℤ) * 2 ^ 32 + z0) = hh * 2 ^ 64 +
      (l1 * 2 ^ 32 + w) * 2 ^ 32 + (m1 * 2 ^ 32 + y) * 2 ^ 32 + (z1 * 2 ^ 32 + z0) := by
    linear_combination (-2 ^ 32 : ℤ) * hs'
  refine ⟨_, _, rfl, ?_, ?_, ?_⟩
  · rw [hl1, hval]; simp only [Nat.cast_add, Nat.cast_mul, Nat.cast_pow, Nat.cast_ofNat]
  · rw [← hval] at hab
    clear * - hab hs0 hz0 hs1 hz1
    generalize hh + l1 + m1 + (s1 : ℤ) = t at *
    omega
  · rw [← hval] at hab
    clear * - hab hs0 hz0 hs1 hz1
    generalize hh + l1 + m1 + (s1 : ℤ) = t at *
    omega

/-- A pair of words congruent to a number that fits is that number. -/
theorem sval_of_cong {r : I128} (h : Wide r) {v k : ℤ} (hv : -2 ^ 127 ≤ v ∧ v < 2 ^ 127)
    (e : (r.hi : ℤ) * 2 ^ 64 + r.lo = v + k * 2 ^ 128) : sval r = v := by
  obtain ⟨lo, hi⟩ := r
  obtain ⟨h1, h2⟩ := h
  dsimp only at *
  unfold sval uval
  dsimp only
  have e' : ((hi * 2 ^ 64 + lo : ℕ) : ℤ) = v + k * 2 ^ 128 := by rw [← e]; push_cast; ring
  rw [e']
  split_ifs with hc
  · have : k = 0 := by omega
    omega
  · have : k = 1 := by omega
    omega

theorem sval_cong (r : I128) : ∃ k : ℤ, (r.hi : ℤ) * 2 ^ 64 + r.lo = sval r + k * 2 ^ 128 := by
  unfold sval uval
  split_ifs
  · exact ⟨0, by push_cast; ring⟩
  · exact ⟨1, by push_cast; ring⟩

theorem sval_range {r : I128} (h : Wide r) : -2 ^ 127 ≤ sval r ∧ sval r < 2 ^ 127 := by
  obtain ⟨h1, h2⟩ := h
  unfold sval uval
  push_cast
  split_ifs <;> omega

theorem sval_eq_toI64 {r : I128} (h : Wide r) : sval r = toI64 (r.hi : ℕ) * 2 ^ 64 + r.lo := by
  obtain ⟨h1, h2⟩ := h
  unfold sval uval toI64
  push_cast
  split_ifs <;> omega

theorem toU64_cong (x : ℤ) : ∃ k : ℤ, (toU64 x : ℤ) = x + k * 2 ^ 64 := by
  refine ⟨-(x / 2 ^ 64), ?_⟩
  unfold toU64
  omega

theorem toU64_lt64 (x : ℤ) : toU64 x < 2 ^ 64 := by
  unfold toU64
  omega

theorem u64_lt64 (x : ℕ) : u64 x < 2 ^ 64 := Nat.mod_lt _ (by norm_num)

theorem u64_cong (x : ℕ) : ∃ k : ℤ, (u64 x : ℤ) = x + k * 2 ^ 64 := by
  refine ⟨-(x / 2 ^ 64 : ℕ), ?_⟩
  unfold u64
  omega

/-- The low word of a shifted pair -/
theorem shift_join {hi lo n : ℕ} (hlo : lo < 2 ^ 64) (h0 : 0 < n) (hn : n < 64) :
    u64 (hi <<< (64 - n)) ||| lo >>> n = (hi * 2 ^ 64 + lo) / 2 ^ n % 2 ^ 64 := by
  unfold u64
  rw [Nat.shiftLeft_eq, Nat.shiftRight_eq_div_pow]
  have e : (2 : ℕ) ^ 64 = 2 ^ (64 - n) * 2 ^ n := by rw [← pow_add]; congr 1; omega
  have hl : lo / 2 ^ n < 2 ^ (64 - n) := by
    apply Nat.div_lt_of_lt_mul
    rw [mul_comm, ← e]; exact hlo
  have e1 : hi * 2 ^ (64 - n) % 2 ^ 64 = 2 ^ (64 - n) * (hi % 2 ^ n) := by
    rw [e, mul_comm hi, Nat.mul_mod_mul_left]
  rw [e1, ← Nat.two_pow_add_eq_or_of_lt hl]
  have e2 : (hi * 2 ^ 64 + lo) / 2 ^ n = 2 ^ (64 - n) * hi + lo / 2 ^ n := by
    rw [e, show hi * (2 ^ (64 - n) * 2 ^ n) + lo = lo + 2 ^ n * (2 ^ (64 - n) * hi) by ring,
      Nat.add_mul_div_left _ _ (by positivity), add_comm]
  rw [e2]
  have : (2 ^ (64 - n) * hi + lo / 2 ^ n) % (2 ^ (64 - n) * 2 ^ n) =
      (2 ^ (64 - n) * (hi % 2 ^ n) + lo / 2 ^ n) % (2 ^ (64 - n) * 2 ^ n) := by
    rw [← Nat.mul_mod_mul_left, Nat.mod_add_mod]
  rw [e, this]
  symm
  apply Nat.mod_eq_of_lt
  have hm : hi % 2 ^ n + 1 ≤ 2 ^ n := Nat.mod_lt _ (by positivity)
  calc 2 ^ (64 - n) * (hi % 2 ^ n) + lo / 2 ^ n
      < 2 ^ (64 - n) * (hi % 2 ^ n) + 2 ^ (64 - n) := by omega
    _ = 2 ^ (64 - n) * (hi % 2 ^ n + 1) := by ring
    _ ≤ _ := Nat.mul_le_mul_left _ hm

end Secp
