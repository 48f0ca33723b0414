import Verif.Spec.Limbs10
import Verif.Proof.Field5x52

/-!
# Helper lemmas: 32-bit limbs of field elements
-/

namespace Secp
open Model

theorem land_m26 (x : ℕ) : x &&& m26 = x % 2 ^ 26 := Nat.and_two_pow_sub_one_eq_mod x 26
theorem land_m22 (x : ℕ) : x &&& m22 = x % 2 ^ 22 := Nat.and_two_pow_sub_one_eq_mod x 22

namespace Model.Fe10

theorem Norm.n9 {a : Fe10} (h : a.Norm) : a.n9 < 2 ^ 22 := by
  have h1 := h.lt
  unfold nat p at h1
  omega

theorem Mag.mono {a : Fe10} {m k : ℕ} (h : a.Mag m) (hk : m ≤ k) : a.Mag k := by
  have e1 : 2 * m * (2 ^ 26 - 1) ≤ 2 * k * (2 ^ 26 - 1) := by gcongr
  have e2 : 2 * m * (2 ^ 22 - 1) ≤ 2 * k * (2 ^ 22 - 1) := by gcongr
  exact ⟨h.n0.trans e1, h.n1.trans e1, h.n2.trans e1, h.n3.trans e1, h.n4.trans e1, h.n5.trans e1, h.n6.trans e1, h.n7.trans e1, h.n8.trans e1, h.n9.trans e2⟩

theorem Norm.mag {a : Fe10} (h : a.Norm) : a.Mag 1 := by
  have := h.n9
  obtain ⟨h0, h1, h2, h3, h4, h5, h6, h7, h8, _⟩ := h
  constructor <;> omega

/-- All limbs but the last are below `2^26`. -/
structure Low (t : Fe10) : Prop where
  n0 : t.n0 < 2 ^ 26
  n1 : t.n1 < 2 ^ 26
  n2 : t.n2 < 2 ^ 26
  n3 : t.n3 < 2 ^ 26
  n4 : t.n4 < 2 ^ 26
  n5 : t.n5 < 2 ^ 26
  n6 : t.n6 < 2 ^ 26
  n7 : t.n7 < 2 ^ 26
  n8 : t.n8 < 2 ^ 26

/-- One carry: the limb that stays and what is passed on. -/
theorem carry_step {y : ℕ} (h : y < 2 ^ 32) : ∃ q r, u32 y >>> 26 = q ∧ u32 y &&& m26 = r ∧ y = q * 2 ^ 26 + r ∧
    r < 2 ^ 26 ∧ q ≤ 63 := by
  have e : u32 y = y := Nat.mod_eq_of_lt h
  rw [e, land_m26, Nat.shiftRight_eq_div_pow]
  exact ⟨_, _, rfl, rfl, by omega, by omega, by omega⟩

theorem carry_spec {r : Fe10} {x t9 : ℕ} (h0 : r.n0 + x * 977 < 2 ^ 32) (h1 : r.n1 + x * 64 + (r.n0 + x * 977) / 2 ^ 26 < 2 ^ 32)
    (h2 : r.n2 + 63 < 2 ^ 32) (h3 : r.n3 + 63 < 2 ^ 32) (h4 : r.n4 + 63 < 2 ^ 32) (h5 : r.n5 + 63 < 2 ^ 32)
    (h6 : r.n6 + 63 < 2 ^ 32) (h7 : r.n7 + 63 < 2 ^ 32) (h8 : r.n8 + 63 < 2 ^ 32) (h9 : t9 + 63 < 2 ^ 32) :
    (r.carry x t9).Low ∧ (r.carry x t9).n9 ≤ t9 + 63 ∧
      (r.carry x t9).nat + r.n9 * 2 ^ 234 = r.nat + t9 * 2 ^ 234 + x * 0x1000003D1 := by
  obtain ⟨a0, a1, a2, a3, a4, a5, a6, a7, a8, a9⟩ := r
  simp only at h0 h1 h2 h3 h4 h5 h6 h7 h8
  obtain ⟨q0, r0, k0, l0, e0, b0, c0⟩ := carry_step h0
  obtain ⟨q1, r1, k1, l1, e1, b1, c1⟩ := carry_step (y := a1 + x * 64 + q0) (by omega)
  obtain ⟨q2, r2, k2, l2, e2, b2, c2⟩ := carry_step (y := a2 + q1) (by omega)
  obtain ⟨q3, r3, k3, l3, e3, b3, c3⟩ := carry_step (y := a3 + q2) (by omega)
  obtain ⟨q4, r4, k4, l4, e4, b4, c4⟩ := carry_step (y := a4 + q3) (by omega)
  obtain ⟨q5, r5, k5, l5, e5, b5, c5⟩ := carry_step (y := a5 + q4) (by omega)
  obtain ⟨q6, r6, k6, l6, e6, b6, c6⟩ := carry_step (y := a6 + q5) (by omega)
  obtain ⟨q7, r7, k7, l7, e7, b7, c7⟩ := carry_step (y := a7 + q6) (by omega)
  obtain ⟨q8, r8, k8, l8, e8, b8, c8⟩ := carry_step (y := a8 + q7) (by omega)
  have hx : u32 (u32 (a1 + x <<< 6) + q0) = u32 (a1 + x * 64 + q0) := by
    rw [Nat.shiftLeft_eq]; unfold u32; omega
  have e9 : u32 (t9 + q8) = t9 + q8 := Nat.mod_eq_of_lt (by omega)
  have key : carry ⟨a0, a1, a2, a3, a4, a5, a6, a7, a8, a9⟩ x t9 = ⟨r0, r1, r2, r3, r4, r5, r6, r7, r8, t9 + q8⟩ := by
    unfold carry
    simp only [k0, l0, hx, k1, l1, k2, l2, k3, l3, k4, l4, k5, l5, k6, l6, k7, l7, k8, l8, e9]
  rw [key]
  refine ⟨⟨b0, b1, b2, b3, b4, b5, b6, b7, b8⟩, by simp only; omega, ?_⟩
  unfold nat
  simp only
  clear key hx e9 k0 l0 b0 c0 h0 k1 l1 b1 c1 h1 k2 l2 b2 c2 h2 k3 l3 b3 c3 h3 k4 l4 b4 c4 h4 k5 l5 b5 c5 h5 k6 l6 b6 c6 h6 k7 l7 b7 c7 h7 k8 l8 b8 c8 h8 h9
  omega

/-- What the first pass of a normalization achieves. -/
structure Passed (t : Fe10) : Prop where
  low : t.Low
  n9 : t.n9 < 2 ^ 22 + 63

/-- Limbs with which the first pass of a normalization does not wrap around. -/
structure Safe (r : Fe10) : Prop where
  mag : r.Mag 32
  n0 : r.n0 + r.n9 / 2 ^ 22 * 977 < 2 ^ 32
  n1 : r.n1 + r.n9 / 2 ^ 22 * 64 + (r.n0 + r.n9 / 2 ^ 22 * 977) / 2 ^ 26 < 2 ^ 32

theorem Mag.safe {r : Fe10} (h : r.Mag 31) : r.Safe := by
  refine ⟨h.mono (by norm_num), ?_, ?_⟩ <;> obtain ⟨h0, h1, h2, h3, h4, h5, h6, h7, h8, h9⟩ := h <;>
    clear h2 h3 h4 h5 h6 h7 h8 <;> omega

theorem pass1_spec {r : Fe10} (h : r.Safe) :
    r.pass1.Passed ∧ r.nat = r.pass1.nat + (r.n9 / 2 ^ 22) * p := by
  obtain ⟨⟨-, -, h2, h3, h4, h5, h6, h7, h8, h9⟩, h0, h1⟩ := h
  have hm : r.n9 % 2 ^ 22 < 2 ^ 22 := Nat.mod_lt _ (by norm_num)
  have hd := Nat.div_add_mod r.n9 (2 ^ 22)
  obtain ⟨c1, c2, c3⟩ := carry_spec (r := r) (x := r.n9 / 2 ^ 22) (t9 := r.n9 % 2 ^ 22) h0 h1
    (by omega) (by omega) (by omega) (by omega) (by omega) (by omega) (by omega) (by omega)
  have e : r.pass1 = r.carry (r.n9 / 2 ^ 22) (r.n9 % 2 ^ 22) := by
    rw [pass1, land_m22, Nat.shiftRight_eq_div_pow]
  rw [e]
  refine ⟨⟨c1, by omega⟩, ?_⟩
  generalize (carry _ _ _).nat = N at *
  generalize r.nat = R at *
  clear c1 c2 h0 h1 h2 h3 h4 h5 h6 h7 h8 h9 e
  unfold p
  omega

theorem mid_iff {t : Fe10} (h : t.Low) : t.mid = m26 ↔ t.n2 = 2 ^ 26 - 1 ∧ t.n3 = 2 ^ 26 - 1 ∧ t.n4 = 2 ^ 26 - 1 ∧
    t.n5 = 2 ^ 26 - 1 ∧ t.n6 = 2 ^ 26 - 1 ∧ t.n7 = 2 ^ 26 - 1 ∧ t.n8 = 2 ^ 26 - 1 := by
  have l {a b : ℕ} (h : a < 2 ^ 26) : a &&& b < 2 ^ 26 := lt_of_le_of_lt Nat.and_le_left h
  obtain ⟨h0, h1, h2, h3, h4, h5, h6, h7, h8⟩ := h
  unfold mid
  rw [show m26 = 2 ^ 26 - 1 from rfl, land_eq_ones (l (l (l (l (l h2))))) h8, land_eq_ones (l (l (l (l h2)))) h7,
    land_eq_ones (l (l (l h2))) h6, land_eq_ones (l (l h2)) h5, land_eq_ones (l h2) h4, land_eq_ones h2 h3]
  tauto

theorem needsReduce_spec {t : Fe10} (h : t.Passed) :
    t.needsReduce = if p ≤ t.nat then 1 else 0 := by
  obtain ⟨hl, h9⟩ := h
  have hm := mid_iff hl
  obtain ⟨h0, h1, h2, h3, h4, h5, h6, h7, h8⟩ := hl
  unfold needsReduce
  simp only [Nat.shiftRight_eq_div_pow, hm]
  have hq : t.n1 + 0x40 + (t.n0 + 0x3D1) / 2 ^ 26 > m26 ↔ 2 ^ 52 ≤ t.n0 + t.n1 * 2 ^ 26 + 0x1000003D1 := by
    unfold m26; omega
  simp only [hq]
  unfold nat p m22
  by_cases hc : t.n9 < 2 ^ 22
  · rw [Nat.div_eq_of_lt hc, Nat.zero_or]
    by_cases k9 : t.n9 = 4194303
    · rw [if_pos k9]
      by_cases k1 : t.n2 = 2 ^ 26 - 1 ∧ t.n3 = 2 ^ 26 - 1 ∧ t.n4 = 2 ^ 26 - 1 ∧
          t.n5 = 2 ^ 26 - 1 ∧ t.n6 = 2 ^ 26 - 1 ∧ t.n7 = 2 ^ 26 - 1 ∧ t.n8 = 2 ^ 26 - 1
      · rw [if_pos k1]
        by_cases k0 : 2 ^ 52 ≤ t.n0 + t.n1 * 2 ^ 26 + 0x1000003D1
        · rw [if_pos k0, if_pos (by omega)]; rfl
        · rw [if_neg k0, if_neg (by omega)]; rfl
      · rw [if_neg k1, Nat.and_zero, Nat.zero_and, if_neg]
        have k2 : t.n2 * 2 ^ 52 + t.n3 * 2 ^ 78 + t.n4 * 2 ^ 104 + t.n5 * 2 ^ 130 + t.n6 * 2 ^ 156 +
            t.n7 * 2 ^ 182 + t.n8 * 2 ^ 208 ≤ 2 ^ 234 - 2 ^ 52 - 2 ^ 52 := by
          clear * - h2 h3 h4 h5 h6 h7 h8 k1
          omega
        omega
    · rw [if_neg k9, Nat.zero_and, Nat.zero_and, if_neg (by omega)]
  · have e1 : t.n9 / 2 ^ 22 = 1 := by omega
    rw [e1, if_neg (show ¬ t.n9 = 4194303 by omega), Nat.zero_and, Nat.zero_and,
      if_pos (by omega), Nat.or_zero]

theorem pass2_spec {t : Fe10} (h : t.Passed) (hlt : t.nat < 2 * p) {x : ℕ} (hx : x = if p ≤ t.nat then 1 else 0) :
    (t.pass2 x).Norm ∧ t.nat = (t.pass2 x).nat + x * p := by
  obtain ⟨⟨h0, h1, h2, h3, h4, h5, h6, h7, h8⟩, h9⟩ := h
  have hx' : x = 1 ∧ p ≤ t.nat ∨ x = 0 ∧ t.nat < p := by
    by_cases h : p ≤ t.nat
    · rw [if_pos h] at hx; exact .inl ⟨hx, h⟩
    · rw [if_neg h] at hx; exact .inr ⟨hx, by omega⟩
  clear hx
  have hx1 : x ≤ 1 := by omega
  obtain ⟨⟨l0, l1, l2, l3, l4, l5, l6, l7, l8⟩, c2, c3⟩ := carry_spec (r := t) (x := x) (t9 := t.n9) (by omega) (by omega)
    (by omega) (by omega) (by omega) (by omega) (by omega) (by omega) (by omega) (by omega)
  have c3 : (t.carry x t.n9).nat = t.nat + x * 0x1000003D1 := by omega
  have hs : ((t.pass2 x).nat < p) ∧ t.nat = (t.pass2 x).nat + x * p := by
    have hn : (t.carry x t.n9).nat = (t.pass2 x).nat + (t.carry x t.n9).n9 / 2 ^ 22 * 2 ^ 256 := by
      have := Nat.div_add_mod (t.carry x t.n9).n9 (2 ^ 22)
      unfold pass2 nat
      simp only [land_m22]
      clear * - this
      omega
    have hr : (t.pass2 x).nat < 2 ^ 256 := by
      have := Nat.mod_lt (t.carry x t.n9).n9 (show 0 < 2 ^ 22 by norm_num)
      unfold pass2 nat
      simp only [land_m22]
      clear * - this l0 l1 l2 l3 l4 l5 l6 l7 l8
      omega
    generalize (t.carry x t.n9).n9 / 2 ^ 22 = q at *
    generalize (t.pass2 x).nat = R at *
    rw [c3] at hn
    clear c2 c3 l0 l1 l2 l3 l4 l5 l6 l7 l8 h0 h1 h2 h3 h4 h5 h6 h7 h8 h9
    generalize t.nat = N at *
    unfold p at *
    rcases hx' with ⟨rfl, h⟩ | ⟨rfl, h⟩ <;> omega
  exact ⟨⟨l0, l1, l2, l3, l4, l5, l6, l7, l8, hs.1⟩, hs.2⟩

theorem Passed.lt {t : Fe10} (h : t.Passed) : t.nat < 2 * p := by
  obtain ⟨⟨h0, h1, h2, h3, h4, h5, h6, h7, h8⟩, h9⟩ := h
  unfold nat p
  omega

theorem normalize_spec {r : Fe10} (h : r.Safe) : r.normalize.Norm ∧ r.normalize.nat = r.nat % p := by
  obtain ⟨h1, h2⟩ := pass1_spec h
  obtain ⟨h3, h4⟩ := pass2_spec h1 h1.lt (needsReduce_spec h1)
  refine ⟨h3, ?_⟩
  have e : r.nat = r.normalize.nat + p * (r.pass1.needsReduce + r.n9 / 2 ^ 22) := by
    rw [h2, h4]
    unfold normalize
    ring
  rw [e, Nat.add_mul_mod_self_left]
  exact (Nat.mod_eq_of_lt h3.lt).symm

/-- Limbs below their bases are determined by the number. -/
theorem Low.ext_nat {a b : Fe10} (ha : a.Low) (hb : b.Low) (h : a.nat = b.nat) : a = b := by
  obtain ⟨h0, h1, h2, h3, h4, h5, h6, h7, h8⟩ := ha
  obtain ⟨k0, k1, k2, k3, k4, k5, k6, k7, k8⟩ := hb
  unfold nat at h
  ext <;> omega

theorem Norm.low {a : Fe10} (h : a.Norm) : a.Low := ⟨h.n0, h.n1, h.n2, h.n3, h.n4, h.n5, h.n6, h.n7, h.n8⟩

theorem Norm.ext_nat {a b : Fe10} (ha : a.Norm) (hb : b.Norm) (h : a.nat = b.nat) : a = b :=
  ha.low.ext_nat hb.low h

theorem normalizeVar_eq {r : Fe10} (h : r.Safe) : r.normalizeVar = r.normalize := by
  obtain ⟨h1, h2⟩ := pass1_spec h
  have hs := needsReduce_spec h1
  obtain ⟨h3, h4⟩ := pass2_spec h1 h1.lt hs
  unfold normalizeVar normalize
  simp only
  by_cases hp : p ≤ r.pass1.nat
  · rw [if_pos hp] at hs
    rw [hs, if_pos one_ne_zero]
  · rw [if_neg hp] at hs
    rw [hs] at h3 h4 ⊢
    rw [if_neg (by simp)]
    exact Low.ext_nat h1.low h3.low (by rw [h4, Nat.zero_mul, Nat.add_zero])

theorem Passed.mag {t : Fe10} (h : t.Passed) : t.Mag 1 := by
  obtain ⟨⟨h0, h1, h2, h3, h4, h5, h6, h7, h8⟩, h9⟩ := h
  constructor <;> omega

theorem normalizesToZero_spec {r : Fe10} (h : r.Safe) :
    r.normalizesToZero = decide (r.nat % p = 0) := by
  obtain ⟨h1, h2⟩ := pass1_spec h
  rw [h2, Nat.add_mul_mod_self_right]
  unfold normalizesToZero
  simp only
  generalize r.pass1 = t at *
  have hlt := h1.lt
  obtain ⟨⟨k0, k1, k2, k3, k4, k5, k6, k7, k8⟩, k9⟩ := h1
  have hz : (t.n0 ||| t.n1 ||| t.n2 ||| t.n3 ||| t.n4 ||| t.n5 ||| t.n6 ||| t.n7 ||| t.n8 ||| t.n9 = 0) ↔ t.nat = 0 := by
    simp only [Nat.or_eq_zero_iff]
    unfold nat
    clear hlt
    omega
  have hx0 : t.n0 ^^^ 0x3D0 < 2 ^ 26 := Nat.xor_lt_two_pow k0 (by norm_num)
  have hx1 : t.n1 ^^^ 0x40 < 2 ^ 26 := Nat.xor_lt_two_pow k1 (by norm_num)
  have hx9 : t.n9 ^^^ 0x3C00000 < 2 ^ 26 := Nat.xor_lt_two_pow (by omega) (by norm_num)
  have l {a b : ℕ} (h : a < 2 ^ 26) : a &&& b < 2 ^ 26 := lt_of_le_of_lt Nat.and_le_left h
  have hp : ((t.n0 ^^^ 0x3D0) &&& (t.n1 ^^^ 0x40) &&& t.n2 &&& t.n3 &&& t.n4 &&& t.n5 &&& t.n6 &&& t.n7 &&& t.n8
    &&& (t.n9 ^^^ 0x3C00000) = m26) ↔ t.nat = p := by
    rw [show m26 = 2 ^ 26 - 1 from rfl,
      land_eq_ones (l (l (l (l (l (l (l (l hx0)))))))) hx9, land_eq_ones (l (l (l (l (l (l (l hx0))))))) k8,
      land_eq_ones (l (l (l (l (l (l hx0)))))) k7, land_eq_ones (l (l (l (l (l hx0))))) k6,
      land_eq_ones (l (l (l (l hx0)))) k5, land_eq_ones (l (l (l hx0))) k4, land_eq_ones (l (l hx0)) k3,
      land_eq_ones (l hx0) k2, land_eq_ones hx0 hx1, xor_eq_iff, xor_eq_iff, xor_eq_iff]
    have c0 : (2 ^ 26 - 1) ^^^ 0x3D0 = 0x3FFFC2F := by decide
    have c1 : (2 ^ 26 - 1) ^^^ 0x40 = 0x3FFFFBF := by decide
    have c9 : (2 ^ 26 - 1) ^^^ 0x3C00000 = 0x03FFFFF := by decide
    rw [c0, c1, c9]
    unfold nat p
    clear hz hx0 hx1 hx9 hlt c0 c1 c9
    constructor
    · omega
    · intro e
      omega
  rw [← Bool.decide_or]
  apply decide_eq_decide.2
  rw [hz, hp]
  clear hz hp hx0 hx1 hx9 k0 k1 k2 k3 k4 k5 k6 k7 k8 k9 h2
  unfold p at *
  constructor
  · rintro (e | e) <;> rw [e]
  · intro e
    omega

theorem normalizesToZeroVar_eq {r : Fe10} (h : r.Safe) :
    r.normalizesToZeroVar = r.normalizesToZero := by
  unfold normalizesToZeroVar
  simp only
  by_cases hc : u32 (r.n0 + r.n9 >>> 22 * 0x3D1) &&& m26 ≠ 0 ∧
      (u32 (r.n0 + r.n9 >>> 22 * 0x3D1) &&& m26) ^^^ 0x3D0 ≠ m26
  · rw [if_pos hc]
    symm
    have e0 : r.pass1.n0 = u32 (r.n0 + r.n9 >>> 22 * 0x3D1) &&& m26 := rfl
    rw [← e0] at hc
    obtain ⟨h1, -⟩ := pass1_spec h
    have hx0 : r.pass1.n0 ^^^ 0x3D0 < 2 ^ 26 := Nat.xor_lt_two_pow h1.low.n0 (by norm_num)
    unfold normalizesToZero
    simp only
    rw [Bool.or_eq_false_iff, decide_eq_false_iff_not, decide_eq_false_iff_not]
    constructor
    · simp only [Nat.or_eq_zero_iff]
      exact fun k => hc.1 k.1.1.1.1.1.1.1.1.1
    · intro k
      apply hc.2
      have hle : m26 ≤ r.pass1.n0 ^^^ 0x3D0 := by
        rw [← k]
        iterate 8 refine Nat.and_le_left.trans ?_
        exact Nat.and_le_left
      unfold m26 at hle ⊢
      omega
  · rw [if_neg hc]
    rfl

end Model.Fe10
end Secp
