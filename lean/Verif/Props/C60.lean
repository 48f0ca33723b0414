import Verif.Proof.Int128Struct

/-!
# C60: the emulated 128-bit arithmetic computes what the native one computes

`/repo/src/int128_struct_impl.h` against `/repo/src/int128_native_impl.h`.  An emulated integer is a
pair of 64-bit words; `uval` and `sval` say which unsigned and which signed 128-bit number it is.
The native operations are those the rest of the model uses (`u128Mul`, `i128AccumMul`, ...): unsigned
ones wrap modulo `2^128`, signed ones are undefined when the result does not fit.
-/

namespace Secp

open Model

theorem C60_u128_mul {a b : ℕ} (ha : a < 2 ^ 64) (hb : b < 2 ^ 64) :
    Wide (I128.umul a b) ∧ uval (I128.umul a b) = u128Mul a b := by
  obtain ⟨e, h1, h2⟩ := umul128_spec ha hb
  refine ⟨⟨h1, h2⟩, ?_⟩
  unfold uval I128.umul u128Mul
  dsimp only
  rw [e, Nat.mod_eq_of_lt]
  calc a * b < 2 ^ 64 * 2 ^ 64 := Nat.mul_lt_mul'' ha hb
    _ = 2 ^ 128 := by norm_num

theorem C60_u128_accum_mul {r : I128} (hr : Wide r) {a b : ℕ} (ha : a < 2 ^ 64)
    (hb : b < 2 ^ 64) : Wide (r.uaccumMul a b) ∧
      uval (r.uaccumMul a b) = u128AccumMul (uval r) a b := by
  obtain ⟨e, h1, h2⟩ := umul128_spec ha hb
  obtain ⟨k1, k2⟩ := hr
  unfold uval I128.uaccumMul u128AccumMul Wide u64
  dsimp only
  rw [← e]
  generalize (umul128 a b).1 = lo at *
  generalize (umul128 a b).2 = hi at *
  obtain ⟨rlo, rhi⟩ := r
  dsimp only at *
  clear e ha hb
  refine ⟨⟨by omega, by omega⟩, ?_⟩
  split_ifs with hc <;> omega

theorem C60_u128_accum_u64 {r : I128} (hr : Wide r) {a : ℕ} (ha : a < 2 ^ 64) :
    Wide (r.uaccumU64 a) ∧ uval (r.uaccumU64 a) = u128AccumU64 (uval r) a := by
  obtain ⟨k1, k2⟩ := hr
  unfold uval I128.uaccumU64 u128AccumU64 Wide u64
  dsimp only
  obtain ⟨rlo, rhi⟩ := r
  dsimp only at *
  refine ⟨⟨by omega, by omega⟩, ?_⟩
  split_ifs with hc <;> omega

theorem C60_u128_rshift {r : I128} (hr : Wide r) {n : ℕ} (hn : n < 128) :
    Wide (r.urshift n) ∧ uval (r.urshift n) = u128Rshift (uval r) n := by
  obtain ⟨k1, k2⟩ := hr
  obtain ⟨lo, hi⟩ := r
  dsimp only at k1 k2
  unfold uval I128.urshift u128Rshift Wide
  dsimp only
  rw [Nat.shiftRight_eq_div_pow (hi * 2 ^ 64 + lo)]
  by_cases h64 : n ≥ 64
  · rw [if_pos h64]
    dsimp only
    obtain ⟨m, rfl⟩ : ∃ m, n = 64 + m := ⟨n - 64, by omega⟩
    rw [Nat.add_sub_cancel_left, Nat.shiftRight_eq_div_pow, pow_add, ← Nat.div_div_eq_div_mul,
      show (hi * 2 ^ 64 + lo) / 2 ^ 64 = hi by omega]
    exact ⟨⟨lt_of_le_of_lt (Nat.div_le_self _ _) k2, by norm_num⟩, by ring⟩
  · rw [if_neg h64]
    by_cases h0 : n > 0
    · rw [if_pos h0]
      dsimp only
      rw [shift_join k1 h0 (by omega), Nat.shiftRight_eq_div_pow]
      have e : hi / 2 ^ n = (hi * 2 ^ 64 + lo) / 2 ^ n / 2 ^ 64 := by
        rw [Nat.div_div_eq_div_mul, mul_comm (2 ^ n), ← Nat.div_div_eq_div_mul]
        congr 1
        omega
      refine ⟨⟨Nat.mod_lt _ (by norm_num), lt_of_le_of_lt (Nat.div_le_self _ _) k2⟩, ?_⟩
      rw [e]
      exact Nat.div_add_mod' _ _
    · rw [if_neg h0]
      obtain rfl : n = 0 := by omega
      exact ⟨⟨k1, k2⟩, by rw [pow_zero, Nat.div_one]⟩

/-- Conversions between the unsigned 128-bit type and words, and the test for the number of bits. -/
theorem C60_u128_words {r : I128} (hr : Wide r) {hi lo : ℕ} (hh : hi < 2 ^ 64) (hl : lo < 2 ^ 64) :
    r.toU64 = u128ToU64 (uval r) ∧ r.hiU64 = uval r >>> 64 ∧
      (Wide (I128.fromU64 lo) ∧ uval (I128.fromU64 lo) = lo) ∧
      (Wide (I128.uload hi lo) ∧ uval (I128.uload hi lo) = (hi <<< 64) + lo) ∧
      ∀ n < 128, (r.ucheckBits n = true ↔ uval r < 2 ^ n) := by
  obtain ⟨k1, k2⟩ := hr
  obtain ⟨rlo, rhi⟩ := r
  dsimp only at k1 k2
  unfold uval I128.toU64 u128ToU64 u64 I128.hiU64 Wide I128.fromU64 I128.uload I128.ucheckBits
  dsimp only
  simp only [Nat.shiftRight_eq_div_pow, Nat.shiftLeft_eq]
  refine ⟨by omega, by omega, ⟨⟨hl, by norm_num⟩, by omega⟩, ⟨⟨hl, hh⟩, trivial⟩, ?_⟩
  intro n hn
  have hz : ∀ x m : ℕ, x / 2 ^ m = 0 ↔ x < 2 ^ m := fun x m => by
    rw [Nat.div_eq_zero_iff]
    have : 0 < 2 ^ m := by positivity
    omega
  by_cases h64 : n ≥ 64
  · rw [if_pos h64, beq_iff_eq, hz]
    obtain ⟨m, rfl⟩ : ∃ m, n = 64 + m := ⟨n - 64, by omega⟩
    rw [Nat.add_sub_cancel_left, pow_add]
    generalize 2 ^ m = t
    omega
  · rw [if_neg h64, Bool.and_eq_true, beq_iff_eq, beq_iff_eq, hz]
    have : 2 ^ n ≤ 2 ^ 64 := Nat.pow_le_pow_right (by norm_num) (by omega)
    generalize 2 ^ n = t at *
    omega

theorem C60_i128_mul {a b : ℤ} (ha : IsI64 a) (hb : IsI64 b) :
    ∃ r, I128.imul a b = some r ∧ Wide r ∧ i128Mul a b = some (sval r) := by
  obtain ⟨lo, hi, e, h, h1, h2⟩ := mul128_spec ha hb
  refine ⟨⟨toU64 lo, toU64 hi⟩, ?_, ⟨toU64_lt64 _, toU64_lt64 _⟩, ?_⟩
  · unfold I128.imul
    rw [e]; rfl
  · have hr : -2 ^ 127 ≤ a * b ∧ a * b < 2 ^ 127 := by
      rw [← h]
      have := toU64_lt64 lo
      omega
    obtain ⟨k, hk⟩ := toU64_cong hi
    rw [sval_of_cong (v := a * b) (k := k) ⟨toU64_lt64 _, toU64_lt64 _⟩ hr]
    · exact if_pos hr
    · dsimp only
      rw [hk, ← h]; ring

/-- Whenever the native accumulation is defined, the emulated one gives the same number. -/
theorem C60_i128_accum_mul {r : I128} (hr : Wide r) {a b v : ℤ} (ha : IsI64 a) (hb : IsI64 b)
    (hv : i128AccumMul (sval r) a b = some v) :
    ∃ r', r.iaccumMul a b = some r' ∧ Wide r' ∧ sval r' = v := by
  obtain ⟨lo, hi, e, h, h1, h2⟩ := mul128_spec ha hb
  have hab : -2 ^ 127 ≤ a * b ∧ a * b < 2 ^ 127 := by
    rw [← h]
    have := toU64_lt64 lo
    omega
  have hv' : -2 ^ 127 ≤ v ∧ v < 2 ^ 127 ∧ v = sval r + a * b := by
    unfold i128AccumMul i128? at hv
    rw [if_pos hab, Option.bind_some] at hv
    split_ifs at hv with hc
    obtain rfl := Option.some.inj hv
    exact ⟨hc.1, hc.2, rfl⟩
  obtain ⟨l1, l2, rfl⟩ := hv'
  unfold I128.iaccumMul
  rw [e, Option.bind_some]
  dsimp only
  have hlo := toU64_lt64 lo
  obtain ⟨c, hc, hc'⟩ : ∃ c : ℤ, (if u64 (r.lo + toU64 lo) < toU64 lo then (1 : ℤ) else 0) = c ∧
      (u64 (r.lo + toU64 lo) : ℤ) + c * 2 ^ 64 = r.lo + toU64 lo ∧ 0 ≤ c ∧ c ≤ 1 := by
    refine ⟨_, rfl, ?_⟩
    have := hr.1
    unfold u64
    split_ifs <;> omega
  rw [hc, show i64? (hi + c) = some (hi + c) from if_pos (by omega), Option.bind_some]
  refine ⟨_, rfl, ⟨u64_lt64 _, u64_lt64 _⟩, ?_⟩
  obtain ⟨k, hk⟩ := toU64_cong (hi + c)
  obtain ⟨k', hk'⟩ := u64_cong (r.hi + toU64 (hi + c))
  obtain ⟨j, hj⟩ := sval_cong r
  refine sval_of_cong (k := k + k' + j) ⟨u64_lt64 _, u64_lt64 _⟩ ⟨l1, l2⟩ ?_
  dsimp only
  rw [hk']
  push_cast
  rw [hk, ← h]
  linear_combination hc'.1 + hj

/-- The determinant `a d - b c`, whenever the native one is defined. -/
theorem C60_i128_det {a b c d v : ℤ} (ha : IsI64 a) (hb : IsI64 b) (hc : IsI64 c) (hd : IsI64 d)
    (hv : i128Det a b c d = some v) :
    ∃ r, I128.idet a b c d = some r ∧ Wide r ∧ sval r = v := by
  obtain ⟨r, e0, hr, hm⟩ := C60_i128_mul ha hd
  have hrv : sval r = a * d := by
    unfold i128Mul i128? at hm
    split_ifs at hm
    exact (Option.some.inj hm).symm
  have hv' : -2 ^ 127 ≤ v ∧ v < 2 ^ 127 ∧ v = a * d - b * c := by
    unfold i128Det i128? at hv
    split_ifs at hv
    · rw [Option.bind_some, Option.bind_some] at hv
      split_ifs at hv with h
      obtain rfl := Option.some.inj hv
      exact ⟨h.1, h.2, rfl⟩
    all_goals simp at hv
  obtain ⟨l1, l2, rfl⟩ := hv'
  obtain ⟨lo, hi, e, h, h1, h2⟩ := mul128_spec hb hc
  unfold I128.idet
  rw [e0, Option.bind_some]
  unfold I128.idissipMul
  rw [e, Option.bind_some]
  dsimp only
  have hlo := toU64_lt64 lo
  obtain ⟨g, hg, hg'⟩ : ∃ g : ℤ, (if r.lo < toU64 lo then (1 : ℤ) else 0) = g ∧
      (toU64 ((r.lo : ℤ) - toU64 lo) : ℤ) = r.lo - toU64 lo + g * 2 ^ 64 ∧ 0 ≤ g ∧ g ≤ 1 := by
    refine ⟨_, rfl, ?_⟩
    have := hr.1
    generalize toU64 lo = l at *
    unfold toU64
    split_ifs <;> omega
  rw [hg, show i64? (hi + g) = some (hi + g) from if_pos (by omega), Option.bind_some]
  refine ⟨_, rfl, ⟨toU64_lt64 _, toU64_lt64 _⟩, ?_⟩
  obtain ⟨k, hk⟩ := toU64_cong (hi + g)
  obtain ⟨k', hk'⟩ := toU64_cong ((r.hi : ℤ) - toU64 (hi + g))
  obtain ⟨j, hj⟩ := sval_cong r
  refine sval_of_cong (k := k' - k + j) ⟨toU64_lt64 _, toU64_lt64 _⟩ ⟨l1, l2⟩ ?_
  dsimp only
  rw [hk', hk, hg'.1, ← h, ← hrv]
  linear_combination hj

theorem C60_i128_rshift {r : I128} (hr : Wide r) {n : ℕ} (hn : n < 128) :
    Wide (r.irshift n) ∧ sval (r.irshift n) = sval r / 2 ^ n := by
  rw [sval_eq_toI64 hr]
  obtain ⟨k1, k2⟩ := hr
  obtain ⟨lo, hi⟩ := r
  dsimp only at k1 k2 ⊢
  obtain ⟨h, hh⟩ : ∃ h, toI64 (hi : ℕ) = h := ⟨_, rfl⟩
  obtain ⟨c, hc⟩ : ∃ c : ℤ, (hi : ℤ) = h + c * 2 ^ 64 := by
    refine ⟨if hi < 2 ^ 63 then 0 else 1, ?_⟩
    unfold toI64 at hh
    split_ifs <;> omega
  have hr : -2 ^ 63 ≤ h ∧ h < 2 ^ 63 := by unfold toI64 at hh; omega
  unfold I128.irshift
  dsimp only
  rw [hh]
  by_cases h64 : n ≥ 64
  · rw [if_pos h64]
    obtain ⟨m, rfl⟩ : ∃ m, n = 64 + m := ⟨n - 64, by omega⟩
    refine ⟨⟨toU64_lt64 _, toU64_lt64 _⟩, ?_⟩
    rw [Nat.add_sub_cancel_left, pow_add, ← Int.ediv_ediv_of_nonneg (by norm_num),
      show (h * 2 ^ 64 + (lo : ℤ)) / 2 ^ 64 = h by omega]
    have hp : (1 : ℤ) ≤ 2 ^ m := one_le_pow₀ (by norm_num)
    have hq : -2 ^ 63 ≤ h / 2 ^ m ∧ h / 2 ^ m < 2 ^ 63 ∧ (h / 2 ^ m < 0 ↔ h < 0) := by
      refine ⟨?_, ?_, ?_⟩
      · rw [Int.le_ediv_iff_mul_le (by omega)]
        nlinarith
      · rw [Int.ediv_lt_iff_lt_mul (by omega)]
        nlinarith
      · rw [Int.ediv_lt_iff_lt_mul (by omega), zero_mul]
    generalize h / 2 ^ m = q at *
    refine sval_of_cong (k := if q < 0 then 1 else 0) ⟨toU64_lt64 _, toU64_lt64 _⟩ (by omega) ?_
    dsimp only
    clear hh hc
    unfold toU64
    split_ifs <;> omega
  · rw [if_neg h64]
    by_cases h0 : n > 0
    · rw [if_pos h0, shift_join k1 h0 (by omega)]
      refine ⟨⟨Nat.mod_lt _ (by norm_num), toU64_lt64 _⟩, ?_⟩
      have e1 : (((hi * 2 ^ 64 + lo) / 2 ^ n % 2 ^ 64 : ℕ) : ℤ) =
          (h * 2 ^ 64 + lo) / 2 ^ n % 2 ^ 64 := by
        rw [Int.natCast_emod, Int.natCast_ediv, Nat.cast_add, Nat.cast_mul, Nat.cast_pow,
          Nat.cast_pow, Nat.cast_ofNat, hc, show (h + c * 2 ^ 64) * 2 ^ 64 + (lo : ℤ) =
          h * 2 ^ 64 + lo + 2 ^ n * (c * 2 ^ (64 - n) * 2 ^ 64) by
            rw [show (2 : ℤ) ^ n * (c * 2 ^ (64 - n) * 2 ^ 64) = c * (2 ^ n * 2 ^ (64 - n)) * 2 ^ 64
              by ring, ← pow_add, show n + (64 - n) = 64 by omega]
            ring,
          Int.add_mul_ediv_left _ _ (by positivity), Int.add_mul_emod_self_right]
      have e2 : h / 2 ^ n = (h * 2 ^ 64 + lo) / 2 ^ n / 2 ^ 64 := by
        rw [Int.ediv_ediv_of_nonneg (by positivity), mul_comm (2 ^ n),
          ← Int.ediv_ediv_of_nonneg (by norm_num), show (h * 2 ^ 64 + (lo : ℤ)) / 2 ^ 64 = h by omega]
      obtain ⟨k, hk⟩ := toU64_cong (h / 2 ^ n)
      refine sval_of_cong (k := k) ⟨Nat.mod_lt _ (by norm_num), toU64_lt64 _⟩ ?_ ?_
      · have hp : (1 : ℤ) ≤ 2 ^ n := one_le_pow₀ (by norm_num)
        constructor
        · rw [Int.le_ediv_iff_mul_le (by omega)]
          nlinarith
        · rw [Int.ediv_lt_iff_lt_mul (by omega)]
          nlinarith
      · dsimp only
        rw [hk, e1, e2]
        have := Int.emod_add_mul_ediv ((h * 2 ^ 64 + (lo : ℤ)) / 2 ^ n) (2 ^ 64)
        linear_combination this
    · rw [if_neg h0]
      obtain rfl : n = 0 := by omega
      refine ⟨⟨k1, k2⟩, ?_⟩
      rw [sval_eq_toI64 ⟨k1, k2⟩, hh, pow_zero, Int.ediv_one]

/-- Conversions between the signed 128-bit type and words -/
theorem C60_i128_words {r : I128} (hr : Wide r) {hi : ℤ} {lo : ℕ} (hh : IsI64 hi)
    (hl : lo < 2 ^ 64) {a : ℤ} (ha : IsI64 a) :
    r.toU64 = i128ToU64 (sval r) ∧ r.itoI64 = i128ToI64 (sval r) ∧
      (Wide (I128.ifromI64 a) ∧ sval (I128.ifromI64 a) = a) ∧
      (Wide (I128.iload hi lo) ∧ sval (I128.iload hi lo) = hi * 2 ^ 64 + lo) := by
  unfold IsI64 at ha hh
  have hr' := hr.1
  refine ⟨?_, ?_, ⟨⟨toU64_lt64 _, toU64_lt64 _⟩, ?_⟩, ⟨hl, toU64_lt64 _⟩, ?_⟩
  · rw [sval_eq_toI64 hr]
    unfold I128.toU64 i128ToU64 toU64
    omega
  · rw [sval_eq_toI64 hr]
    unfold I128.itoI64 I128.toU64 i128ToI64
    generalize toI64 (r.hi : ℕ) = h
    unfold toI64
    omega
  · refine sval_of_cong (k := if a < 0 then 1 else 0) ⟨toU64_lt64 _, toU64_lt64 _⟩ (by omega) ?_
    unfold I128.ifromI64 toU64
    dsimp only
    split_ifs <;> omega
  · obtain ⟨k, hk⟩ := toU64_cong hi
    refine sval_of_cong (k := k) ⟨hl, toU64_lt64 _⟩ (by omega) ?_
    unfold I128.iload
    dsimp only
    rw [hk]
    ring

/-- Equality and the comparison with `± 2^n` -/
theorem C60_i128_eq {r s : I128} (hr : Wide r) (hs : Wide s) {n : ℕ} (hn : n < 127) {sign : ℤ}
    (h : sign = 1 ∨ sign = -1) : (r.ieqVar s = true ↔ sval r = sval s) ∧
      (r.icheckPow2 n sign = true ↔ sval r = sign * 2 ^ n) := by
  have inj : ∀ {r s : I128}, Wide r → Wide s → (r = s ↔ sval r = sval s) := by
    intro r s hr hs
    refine ⟨fun e => by rw [e], fun e => ?_⟩
    obtain ⟨rl, rh⟩ := r
    obtain ⟨sl, sh⟩ := s
    obtain ⟨h1, h2⟩ := hr
    obtain ⟨h3, h4⟩ := hs
    dsimp only at *
    unfold sval uval at e
    dsimp only at e
    rw [I128.mk.injEq]
    split_ifs at e <;> omega
  have ext : ∀ r : I128, ∀ hi lo : ℕ, (r.hi = hi ∧ r.lo = lo) ↔ r = ⟨lo, hi⟩ := by
    intro r hi lo
    obtain ⟨a, b⟩ := r
    rw [I128.mk.injEq]
    exact And.comm
  constructor
  · unfold I128.ieqVar
    rw [Bool.and_eq_true, beq_iff_eq, beq_iff_eq, ext, ← inj hr hs]
  · unfold I128.icheckPow2
    by_cases h64 : n ≥ 64
    · obtain ⟨m, rfl⟩ : ∃ m, n = 64 + m := ⟨n - 64, by omega⟩
      rw [if_pos h64, Bool.and_eq_true, beq_iff_eq, beq_iff_eq, ext, Nat.add_sub_cancel_left,
        inj hr ⟨by norm_num, u64_lt64 _⟩]
      have hm : (2 : ℤ) ^ m ≤ 2 ^ 62 := pow_le_pow_right₀ (by norm_num) (by omega)
      have hm1 : (1 : ℤ) ≤ 2 ^ m := one_le_pow₀ (by norm_num)
      obtain ⟨j, hj⟩ := toU64_cong sign
      obtain ⟨k, hk⟩ := u64_cong (toU64 sign <<< m)
      rw [sval_of_cong (r := ⟨0, u64 (toU64 sign <<< m)⟩) (v := sign * 2 ^ (64 + m))
        (k := k + j * 2 ^ m) ⟨by norm_num, u64_lt64 _⟩]
      · rw [pow_add]
        rcases h with rfl | rfl <;> omega
      · dsimp only
        rw [hk, Nat.shiftLeft_eq, pow_add]
        push_cast
        rw [hj]
        ring
    · rw [if_neg h64, Bool.and_eq_true, beq_iff_eq, beq_iff_eq, ext,
        inj hr ⟨u64_lt64 _, toU64_lt64 _⟩]
      have hm : (2 : ℤ) ^ n ≤ 2 ^ 63 := pow_le_pow_right₀ (by norm_num) (by omega)
      have hm1 : (1 : ℤ) ≤ 2 ^ n := one_le_pow₀ (by norm_num)
      have hm' : 2 ^ n ≤ 2 ^ 63 := Nat.pow_le_pow_right (by norm_num) (by omega)
      have hm1' : 1 ≤ 2 ^ n := Nat.one_le_two_pow
      rw [sval_of_cong (r := ⟨u64 (toU64 sign <<< n), toU64 (sign / 2)⟩) (v := sign * 2 ^ n)
        (k := if sign = 1 then 0 else 1) ⟨u64_lt64 _, toU64_lt64 _⟩]
      · rcases h with rfl | rfl <;> omega
      · dsimp only
        rw [Nat.shiftLeft_eq]
        have hcast : ((2 ^ n : ℕ) : ℤ) = 2 ^ n := by push_cast; rfl
        rw [← hcast]
        generalize 2 ^ n = t at *
        rcases h with rfl | rfl
        · rw [if_pos rfl, show toU64 1 = 1 by decide, show toU64 (1 / 2) = 0 by decide]
          unfold u64
          omega
        · rw [if_neg (by decide), show toU64 (-1) = 2 ^ 64 - 1 by decide,
            show toU64 (-1 / 2) = 2 ^ 64 - 1 by decide]
          unfold u64
          obtain ⟨d, rfl⟩ : ∃ d, t = d + 1 := ⟨t - 1, by omega⟩
          omega

/-! Concrete cases: extreme words, where every carry and borrow occurs -/

example : Wide ⟨2 ^ 64 - 1, 2 ^ 64 - 1⟩ ∧ sval ⟨2 ^ 64 - 1, 2 ^ 64 - 1⟩ = -1 := by
  unfold Wide; decide

example : I128.umul (2 ^ 64 - 1) (2 ^ 64 - 1) = ⟨1, 2 ^ 64 - 2⟩ := by decide

example : IsI64 (-2 ^ 63) ∧ I128.imul (-2 ^ 63) (-2 ^ 63) = some ⟨0, 2 ^ 62⟩ := by
  refine ⟨⟨le_refl _, by norm_num⟩, by decide +kernel⟩

example : i128AccumMul (sval ⟨2 ^ 64 - 1, 2 ^ 64 - 1⟩) (-2 ^ 63) (2 ^ 63 - 1) =
      some (-85070591730234615856620279821087277057) ∧
    I128.iaccumMul ⟨2 ^ 64 - 1, 2 ^ 64 - 1⟩ (-2 ^ 63) (2 ^ 63 - 1) =
      some ⟨2 ^ 63 - 1, 2 ^ 64 - 2 ^ 62⟩ := by decide +kernel

example : i128Det (-2 ^ 62) 3 (2 ^ 62) 5 = some (-2 ^ 65) ∧
    I128.idet (-2 ^ 62) 3 (2 ^ 62) 5 = some ⟨0, 2 ^ 64 - 2⟩ := by decide +kernel

end Secp
