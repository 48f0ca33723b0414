import Verif.Spec.Limbs
import Mathlib.Tactic.Ring
import Mathlib.Tactic.LinearCombination
import Mathlib.Data.ZMod.Basic

/-!
# Helper lemmas: limbs of field elements
-/

namespace Secp
open Model

theorem land_m52 (x : ℕ) : x &&& m52 = x % 2 ^ 52 := Nat.and_two_pow_sub_one_eq_mod x 52
theorem land_m48 (x : ℕ) : x &&& m48 = x % 2 ^ 48 := Nat.and_two_pow_sub_one_eq_mod x 48
theorem land_one' (x : ℕ) : x &&& 1 = x % 2 := Nat.and_two_pow_sub_one_eq_mod x 1
theorem land_f (x : ℕ) : x &&& 0xF = x % 2 ^ 4 := Nat.and_two_pow_sub_one_eq_mod x 4
theorem land_ff (x : ℕ) : x &&& 0xFF = x % 2 ^ 8 := Nat.and_two_pow_sub_one_eq_mod x 8

theorem or_shl {x y k : ℕ} (h : x < 2 ^ k) : x ||| (y <<< k) = x + y * 2 ^ k := by
  rw [Nat.or_comm, ← Nat.shiftLeft_add_eq_or_of_lt h, Nat.shiftLeft_eq, Nat.add_comm]

theorem land_eq_ones {a b k : ℕ} (ha : a < 2 ^ k) (hb : b < 2 ^ k) :
    a &&& b = 2 ^ k - 1 ↔ a = 2 ^ k - 1 ∧ b = 2 ^ k - 1 := by
  constructor
  · intro h
    have h1 : a &&& b ≤ a := Nat.and_le_left
    have h2 : a &&& b ≤ b := Nat.and_le_right
    omega
  · rintro ⟨rfl, rfl⟩
    exact Nat.and_self _

theorem xor_eq_iff {a c m : ℕ} : a ^^^ c = m ↔ a = m ^^^ c := by
  constructor
  · rintro rfl
    rw [Nat.xor_assoc, Nat.xor_self, Nat.xor_zero]
  · rintro rfl
    rw [Nat.xor_assoc, Nat.xor_self, Nat.xor_zero]

theorem two_pow_256 : (2 : Fp) ^ 256 = ((feC : ℕ) : Fp) := by
  have h : ((2 ^ 256 : ℕ) : Fp) = ((feC : ℕ) : Fp) := by
    rw [ZMod.natCast_eq_natCast_iff]
    decide +kernel
  rwa [Nat.cast_pow] at h

namespace Model.Fe5

theorem Norm.n4 {a : Fe5} (h : a.Norm) : a.n4 < 2 ^ 48 := by
  have h1 := h.lt
  unfold nat p at h1
  omega

theorem Mag.mono {a : Fe5} {m k : ℕ} (h : a.Mag m) (hk : m ≤ k) : a.Mag k := by
  have e1 : 2 * m * (2 ^ 52 - 1) ≤ 2 * k * (2 ^ 52 - 1) := by gcongr
  have e2 : 2 * m * (2 ^ 48 - 1) ≤ 2 * k * (2 ^ 48 - 1) := by gcongr
  exact ⟨h.n0.trans e1, h.n1.trans e1, h.n2.trans e1, h.n3.trans e1, h.n4.trans e2⟩

theorem Norm.mag {a : Fe5} (h : a.Norm) : a.Mag 1 := by
  have := h.n4
  obtain ⟨h0, h1, h2, h3, _⟩ := h
  constructor <;> omega

/-- What the first pass of a normalization achieves. -/
structure Passed (t : Fe5) : Prop where
  n0 : t.n0 < 2 ^ 52
  n1 : t.n1 < 2 ^ 52
  n2 : t.n2 < 2 ^ 52
  n3 : t.n3 < 2 ^ 52
  n4 : t.n4 < 2 ^ 48 + 65
  lt : t.nat < 2 ^ 256 + 2 ^ 40 * 2 ^ 208

theorem pass1_spec {r : Fe5} (h : r.Mag 32) :
    r.pass1.Passed ∧ r.nat = r.pass1.nat + (r.n4 / 2 ^ 48) * p := by
  obtain ⟨h0, h1, h2, h3, h4⟩ := h
  obtain ⟨a, b, c, d, e⟩ := r
  simp only at h0 h1 h2 h3 h4
  have hx : e / 2 ^ 48 < 64 := by omega
  have hdm := Nat.div_add_mod e (2 ^ 48)
  have hml := Nat.mod_lt e (show 0 < 2 ^ 48 by norm_num)
  simp only [pass1, land_m48, land_m52, Nat.shiftRight_eq_div_pow, u64, feC]
  generalize e / 2 ^ 48 = x at *
  generalize e % 2 ^ 48 = f at *
  have hc : x * 4294968273 % 2 ^ 64 = x * 4294968273 := Nat.mod_eq_of_lt (by omega)
  rw [hc]
  have e0 : (a + x * 4294968273) % 2 ^ 64 = a + x * 4294968273 := Nat.mod_eq_of_lt (by omega)
  rw [e0]
  have d0 := Nat.div_add_mod (a + x * 4294968273) (2 ^ 52)
  have m0 := Nat.mod_lt (a + x * 4294968273) (show 0 < 2 ^ 52 by norm_num)
  generalize hA : (a + x * 4294968273) / 2 ^ 52 = q0 at *
  generalize (a + x * 4294968273) % 2 ^ 52 = r0 at *
  have b0 : q0 ≤ 64 := by omega
  have e1 : (b + q0) % 2 ^ 64 = b + q0 := Nat.mod_eq_of_lt (by omega)
  rw [e1]
  have d1 := Nat.div_add_mod (b + q0) (2 ^ 52)
  have m1 := Nat.mod_lt (b + q0) (show 0 < 2 ^ 52 by norm_num)
  generalize (b + q0) / 2 ^ 52 = q1 at *
  generalize (b + q0) % 2 ^ 52 = r1 at *
  have b1 : q1 ≤ 64 := by omega
  have e2 : (c + q1) % 2 ^ 64 = c + q1 := Nat.mod_eq_of_lt (by omega)
  rw [e2]
  have d2 := Nat.div_add_mod (c + q1) (2 ^ 52)
  have m2 := Nat.mod_lt (c + q1) (show 0 < 2 ^ 52 by norm_num)
  generalize (c + q1) / 2 ^ 52 = q2 at *
  generalize (c + q1) % 2 ^ 52 = r2 at *
  have b2 : q2 ≤ 64 := by omega
  have e3 : (d + q2) % 2 ^ 64 = d + q2 := Nat.mod_eq_of_lt (by omega)
  rw [e3]
  have d3 := Nat.div_add_mod (d + q2) (2 ^ 52)
  have m3 := Nat.mod_lt (d + q2) (show 0 < 2 ^ 52 by norm_num)
  generalize (d + q2) / 2 ^ 52 = q3 at *
  generalize (d + q2) % 2 ^ 52 = r3 at *
  have b3 : q3 ≤ 64 := by omega
  have e4 : (f + q3) % 2 ^ 64 = f + q3 := Nat.mod_eq_of_lt (by omega)
  rw [e4]
  refine ⟨⟨m0, m1, m2, m3, by simp only; omega, by unfold nat; simp only; omega⟩, ?_⟩
  unfold nat p
  simp only
  omega

theorem needsReduce_spec {t : Fe5} (h : t.Passed) :
    t.needsReduce = if p ≤ t.nat then 1 else 0 := by
  obtain ⟨h0, h1, h2, h3, h4, hlt⟩ := h
  obtain ⟨a, b, c, d, e⟩ := t
  simp only at h0 h1 h2 h3 h4
  have hand : (b &&& c &&& d = m52) ↔ (b = 2 ^ 52 - 1 ∧ c = 2 ^ 52 - 1) ∧ d = 2 ^ 52 - 1 := by
    rw [show m52 = 2 ^ 52 - 1 from rfl,
      land_eq_ones (lt_of_le_of_lt Nat.and_le_left h1) h3, land_eq_ones h1 h2]
  unfold needsReduce
  simp only [Nat.shiftRight_eq_div_pow, hand]
  unfold nat p feP0 m48
  simp only
  by_cases hc : e < 2 ^ 48
  · have e1 : e / 2 ^ 48 = 0 := Nat.div_eq_of_lt hc
    rw [e1, Nat.zero_or]
    by_cases k4 : e = 281474976710655
    · rw [if_pos k4]
      by_cases k1 : (b = 2 ^ 52 - 1 ∧ c = 2 ^ 52 - 1) ∧ d = 2 ^ 52 - 1
      · rw [if_pos k1]
        by_cases k0 : a ≥ 4503595332402223
        · rw [if_pos k0, if_pos (by omega)]; rfl
        · rw [if_neg k0, if_neg (by omega)]; rfl
      · rw [if_neg k1, Nat.and_zero, Nat.zero_and, if_neg (by omega)]
    · rw [if_neg k4, Nat.zero_and, Nat.zero_and, if_neg (by omega)]
  · have e1 : e / 2 ^ 48 = 1 := by omega
    rw [e1, if_neg (show ¬ e = 281474976710655 by omega), Nat.zero_and, Nat.zero_and,
      if_pos (by omega), Nat.or_zero]

theorem pass2_spec {t : Fe5} (h : t.Passed) {x : ℕ} (hx : x = if p ≤ t.nat then 1 else 0) :
    (t.pass2 x).Norm ∧ t.nat = (t.pass2 x).nat + x * p := by
  obtain ⟨h0, h1, h2, h3, h4, hlt⟩ := h
  have hx' : x = 1 ∧ p ≤ t.nat ∨ x = 0 ∧ t.nat < p := by
    by_cases h : p ≤ t.nat
    · rw [if_pos h] at hx; exact .inl ⟨hx, h⟩
    · rw [if_neg h] at hx; exact .inr ⟨hx, by omega⟩
  clear hx
  obtain ⟨a, b, c, d, e⟩ := t
  simp only at h0 h1 h2 h3 h4
  have hx1 : x ≤ 1 := by omega
  unfold nat p at hx'
  unfold nat at hlt
  simp only at hx' hlt
  simp only [pass2, land_m48, land_m52, Nat.shiftRight_eq_div_pow, u64, feC]
  have hc : x * 4294968273 % 2 ^ 64 = x * 4294968273 := Nat.mod_eq_of_lt (by omega)
  rw [hc]
  have e0 : (a + x * 4294968273) % 2 ^ 64 = a + x * 4294968273 := Nat.mod_eq_of_lt (by omega)
  rw [e0]
  have d0 := Nat.div_add_mod (a + x * 4294968273) (2 ^ 52)
  have m0 := Nat.mod_lt (a + x * 4294968273) (show 0 < 2 ^ 52 by norm_num)
  generalize hA : (a + x * 4294968273) / 2 ^ 52 = q0 at *
  generalize (a + x * 4294968273) % 2 ^ 52 = r0 at *
  have b0 : q0 ≤ 1 := by omega
  have e1 : (b + q0) % 2 ^ 64 = b + q0 := Nat.mod_eq_of_lt (by omega)
  rw [e1]
  have d1 := Nat.div_add_mod (b + q0) (2 ^ 52)
  have m1 := Nat.mod_lt (b + q0) (show 0 < 2 ^ 52 by norm_num)
  generalize (b + q0) / 2 ^ 52 = q1 at *
  generalize (b + q0) % 2 ^ 52 = r1 at *
  have b1 : q1 ≤ 1 := by omega
  have e2 : (c + q1) % 2 ^ 64 = c + q1 := Nat.mod_eq_of_lt (by omega)
  rw [e2]
  have d2 := Nat.div_add_mod (c + q1) (2 ^ 52)
  have m2 := Nat.mod_lt (c + q1) (show 0 < 2 ^ 52 by norm_num)
  generalize (c + q1) / 2 ^ 52 = q2 at *
  generalize (c + q1) % 2 ^ 52 = r2 at *
  have b2 : q2 ≤ 1 := by omega
  have e3 : (d + q2) % 2 ^ 64 = d + q2 := Nat.mod_eq_of_lt (by omega)
  rw [e3]
  have d3 := Nat.div_add_mod (d + q2) (2 ^ 52)
  have m3 := Nat.mod_lt (d + q2) (show 0 < 2 ^ 52 by norm_num)
  generalize (d + q2) / 2 ^ 52 = q3 at *
  generalize (d + q2) % 2 ^ 52 = r3 at *
  have b3 : q3 ≤ 1 := by omega
  have e4 : (e + q3) % 2 ^ 64 = e + q3 := Nat.mod_eq_of_lt (by omega)
  rw [e4]
  have d4 := Nat.div_add_mod (e + q3) (2 ^ 48)
  have m4 := Nat.mod_lt (e + q3) (show 0 < 2 ^ 48 by norm_num)
  generalize (e + q3) / 2 ^ 48 = q4 at *
  generalize (e + q3) % 2 ^ 48 = r4 at *
  have key : a + b * 2 ^ 52 + c * 2 ^ 104 + d * 2 ^ 156 + e * 2 ^ 208 + x * 4294968273 =
      r0 + r1 * 2 ^ 52 + r2 * 2 ^ 104 + r3 * 2 ^ 156 + r4 * 2 ^ 208 + q4 * 2 ^ 256 := by
    clear hx' hlt hx1
    omega
  have hr : r0 + r1 * 2 ^ 52 + r2 * 2 ^ 104 + r3 * 2 ^ 156 + r4 * 2 ^ 208 < 2 ^ 256 := by
    clear key hx' hlt d0 d1 d2 d3 d4
    omega
  suffices hs : r0 + r1 * 2 ^ 52 + r2 * 2 ^ 104 + r3 * 2 ^ 156 + r4 * 2 ^ 208 <
        115792089237316195423570985008687907853269984665640564039457584007908834671663 ∧
      a + b * 2 ^ 52 + c * 2 ^ 104 + d * 2 ^ 156 + e * 2 ^ 208 =
      r0 + r1 * 2 ^ 52 + r2 * 2 ^ 104 + r3 * 2 ^ 156 + r4 * 2 ^ 208 + x *
      115792089237316195423570985008687907853269984665640564039457584007908834671663 by
    refine ⟨⟨m0, m1, m2, m3, ?_⟩, ?_⟩
    · unfold nat p
      exact hs.1
    · unfold nat p
      exact hs.2
  clear d0 d1 d2 d3 d4 m0 m1 m2 m3 m4 h0 h1 h2 h3 h4 b0 b1 b2 b3 hA e0 e1 e2 e3 e4 hc
  generalize r0 + r1 * 2 ^ 52 + r2 * 2 ^ 104 + r3 * 2 ^ 156 + r4 * 2 ^ 208 = R at *
  generalize a + b * 2 ^ 52 + c * 2 ^ 104 + d * 2 ^ 156 + e * 2 ^ 208 = N at *
  rcases hx' with ⟨rfl, h⟩ | ⟨rfl, h⟩
  · have : q4 = 1 := by omega
    subst this
    omega
  · have : q4 = 0 := by omega
    subst this
    omega

theorem normalize_spec {r : Fe5} (h : r.Mag 32) : r.normalize.Norm ∧ r.normalize.nat = r.nat % p := by
  obtain ⟨h1, h2⟩ := pass1_spec h
  obtain ⟨h3, h4⟩ := pass2_spec h1 (needsReduce_spec h1)
  refine ⟨h3, ?_⟩
  have e : r.nat = r.normalize.nat + p * (r.pass1.needsReduce + r.n4 / 2 ^ 48) := by
    rw [h2, h4]
    unfold normalize
    ring
  rw [e, Nat.add_mul_mod_self_left]
  exact (Nat.mod_eq_of_lt h3.lt).symm

theorem normalizeVar_eq {r : Fe5} (h : r.Mag 32) : r.normalizeVar = r.normalize := by
  obtain ⟨h1, h2⟩ := pass1_spec h
  unfold normalizeVar normalize
  simp only
  rw [needsReduce_spec h1]
  by_cases hp : p ≤ r.pass1.nat
  · rw [if_pos hp, if_pos one_ne_zero]
  · rw [if_neg hp, if_neg (by simp)]
    obtain ⟨h0, k1, k2, k3, h4, hlt⟩ := h1
    have h5 : r.pass1.n4 < 2 ^ 48 := by
      unfold nat p at hp
      omega
    generalize r.pass1 = t at *
    obtain ⟨a, b, c, d, e⟩ := t
    simp only at h0 k1 k2 k3 h5
    simp only [pass2, land_m48, land_m52, Nat.shiftRight_eq_div_pow, u64, Nat.zero_mul, Nat.zero_mod,
      Nat.add_zero]
    have e0 : a % 2 ^ 64 = a := Nat.mod_eq_of_lt (by omega)
    have f0 : a / 2 ^ 52 = 0 := Nat.div_eq_of_lt h0
    have e1 : b % 2 ^ 64 = b := Nat.mod_eq_of_lt (by omega)
    have f1 : b / 2 ^ 52 = 0 := Nat.div_eq_of_lt k1
    have e2 : c % 2 ^ 64 = c := Nat.mod_eq_of_lt (by omega)
    have f2 : c / 2 ^ 52 = 0 := Nat.div_eq_of_lt k2
    have e3 : d % 2 ^ 64 = d := Nat.mod_eq_of_lt (by omega)
    have f3 : d / 2 ^ 52 = 0 := Nat.div_eq_of_lt k3
    have e4 : e % 2 ^ 64 = e := Nat.mod_eq_of_lt (by omega)
    rw [e0, f0, Nat.add_zero, e1, f1, Nat.add_zero, e2, f2, Nat.add_zero, e3, f3, Nat.add_zero, e4,
      Nat.mod_eq_of_lt h0, Nat.mod_eq_of_lt k1, Nat.mod_eq_of_lt k2, Nat.mod_eq_of_lt k3,
      Nat.mod_eq_of_lt h5]

theorem Passed.mag {t : Fe5} (h : t.Passed) : t.Mag 1 := by
  obtain ⟨h0, h1, h2, h3, h4, _⟩ := h
  constructor <;> omega

theorem normalizesToZero_spec {r : Fe5} (h : r.Mag 32) :
    r.normalizesToZero = decide (r.nat % p = 0) := by
  obtain ⟨h1, h2⟩ := pass1_spec h
  rw [h2, Nat.add_mul_mod_self_right]
  unfold normalizesToZero
  simp only
  generalize r.pass1 = t at *
  obtain ⟨k0, k1, k2, k3, k4, hlt⟩ := h1
  have hz : (t.n0 ||| t.n1 ||| t.n2 ||| t.n3 ||| t.n4 = 0) ↔ t.nat = 0 := by
    simp only [Nat.or_eq_zero_iff]
    unfold nat
    omega
  have hx0 : t.n0 ^^^ 0x1000003D0 < 2 ^ 52 := Nat.xor_lt_two_pow k0 (by norm_num)
  have hx4 : t.n4 ^^^ 0xF000000000000 < 2 ^ 52 := Nat.xor_lt_two_pow (by omega) (by norm_num)
  have hp : ((t.n0 ^^^ 0x1000003D0) &&& t.n1 &&& t.n2 &&& t.n3 &&& (t.n4 ^^^ 0xF000000000000) = m52) ↔
      t.nat = p := by
    rw [show m52 = 2 ^ 52 - 1 from rfl,
      land_eq_ones (lt_of_le_of_lt (Nat.and_le_left.trans (Nat.and_le_left.trans Nat.and_le_left)) hx0) hx4,
      land_eq_ones (lt_of_le_of_lt (Nat.and_le_left.trans Nat.and_le_left) hx0) k3,
      land_eq_ones (lt_of_le_of_lt Nat.and_le_left hx0) k2, land_eq_ones hx0 k1, xor_eq_iff, xor_eq_iff]
    have c0 : (2 ^ 52 - 1) ^^^ 0x1000003D0 = 0xFFFFEFFFFFC2F := by decide
    have c4 : (2 ^ 52 - 1) ^^^ 0xF000000000000 = 0x0FFFFFFFFFFFF := by decide
    rw [c0, c4]
    unfold nat p
    omega
  rw [← Bool.decide_or]
  apply decide_eq_decide.2
  rw [hz, hp]
  unfold p
  constructor
  · rintro (e | e) <;> rw [e]
  · intro e
    omega

theorem normalizesToZeroVar_eq {r : Fe5} (h : r.Mag 32) :
    r.normalizesToZeroVar = r.normalizesToZero := by
  unfold normalizesToZeroVar
  simp only
  by_cases hc : u64 (r.n0 + u64 (r.n4 >>> 48 * feC)) &&& m52 ≠ 0 ∧
      (u64 (r.n0 + u64 (r.n4 >>> 48 * feC)) &&& m52) ^^^ 0x1000003D0 ≠ m52
  · rw [if_pos hc]
    symm
    have e0 : r.pass1.n0 = u64 (r.n0 + u64 (r.n4 >>> 48 * feC)) &&& m52 := rfl
    rw [← e0] at hc
    obtain ⟨h1, -⟩ := pass1_spec h
    have hx0 : r.pass1.n0 ^^^ 0x1000003D0 < 2 ^ 52 := Nat.xor_lt_two_pow h1.n0 (by norm_num)
    unfold normalizesToZero
    simp only
    rw [Bool.or_eq_false_iff, decide_eq_false_iff_not, decide_eq_false_iff_not]
    constructor
    · simp only [Nat.or_eq_zero_iff]
      exact fun k => hc.1 k.1.1.1.1
    · intro k
      apply hc.2
      have hle : m52 ≤ r.pass1.n0 ^^^ 0x1000003D0 := by
        rw [← k]
        exact Nat.and_le_left.trans (Nat.and_le_left.trans (Nat.and_le_left.trans Nat.and_le_left))
      unfold m52 at hle ⊢
      omega
  · rw [if_neg hc]
    rfl

end Model.Fe5
end Secp
