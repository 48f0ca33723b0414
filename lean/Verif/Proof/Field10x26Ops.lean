import Verif.Proof.Field10x26Mul
import Verif.Proof.Field5x52Bytes

/-!
# Helper lemmas: the remaining operations on the 32-bit limbs of field elements
-/

namespace Secp
open Model
open Spec (beNat beBytes)
namespace Model.Fe10

theorem sub32_eq {a b : ℕ} (h : b ≤ a) (ha : a < 2 ^ 32) : sub32 a b = a - b := by
  unfold sub32
  omega

theorem negate_spec {a : Fe10} {m : ℕ} (hm : m ≤ 31) (h : a.Mag m) :
    (a.negate m).Mag (m + 1) ∧ (a.negate m).nat + a.nat = 2 * (m + 1) * p := by
  obtain ⟨h0, h1, h2, h3, h4, h5, h6, h7, h8, h9⟩ := h
  obtain ⟨a0, a1, a2, a3, a4, a5, a6, a7, a8, a9⟩ := a
  simp only at h0 h1 h2 h3 h4 h5 h6 h7 h8 h9
  have e0 : u32 (67107887 * 2 * (m + 1)) = 67107887 * 2 * (m + 1) := Nat.mod_eq_of_lt (by omega)
  have e1 : u32 (67108799 * 2 * (m + 1)) = 67108799 * 2 * (m + 1) := Nat.mod_eq_of_lt (by omega)
  have e2 : u32 (67108863 * 2 * (m + 1)) = 67108863 * 2 * (m + 1) := Nat.mod_eq_of_lt (by omega)
  have e3 : u32 (4194303 * 2 * (m + 1)) = 4194303 * 2 * (m + 1) := Nat.mod_eq_of_lt (by omega)
  have s0 : sub32 (67107887 * 2 * (m + 1)) a0 = 67107887 * 2 * (m + 1) - a0 := sub32_eq (by omega) (by omega)
  have s1 : sub32 (67108799 * 2 * (m + 1)) a1 = 67108799 * 2 * (m + 1) - a1 := sub32_eq (by omega) (by omega)
  have s2 : sub32 (67108863 * 2 * (m + 1)) a2 = 67108863 * 2 * (m + 1) - a2 := sub32_eq (by omega) (by omega)
  have s3 : sub32 (67108863 * 2 * (m + 1)) a3 = 67108863 * 2 * (m + 1) - a3 := sub32_eq (by omega) (by omega)
  have s4 : sub32 (67108863 * 2 * (m + 1)) a4 = 67108863 * 2 * (m + 1) - a4 := sub32_eq (by omega) (by omega)
  have s5 : sub32 (67108863 * 2 * (m + 1)) a5 = 67108863 * 2 * (m + 1) - a5 := sub32_eq (by omega) (by omega)
  have s6 : sub32 (67108863 * 2 * (m + 1)) a6 = 67108863 * 2 * (m + 1) - a6 := sub32_eq (by omega) (by omega)
  have s7 : sub32 (67108863 * 2 * (m + 1)) a7 = 67108863 * 2 * (m + 1) - a7 := sub32_eq (by omega) (by omega)
  have s8 : sub32 (67108863 * 2 * (m + 1)) a8 = 67108863 * 2 * (m + 1) - a8 := sub32_eq (by omega) (by omega)
  have s9 : sub32 (4194303 * 2 * (m + 1)) a9 = 4194303 * 2 * (m + 1) - a9 := sub32_eq (by omega) (by omega)
  unfold negate
  simp only [e0, e1, e2, e3, s0, s1, s2, s3, s4, s5, s6, s7, s8, s9]
  refine ⟨by constructor <;> simp only <;> omega, ?_⟩
  obtain ⟨b0, k0⟩ : ∃ b, b + a0 = 67107887 * 2 * (m + 1) := ⟨67107887 * 2 * (m + 1) - a0, by omega⟩
  have j0 : 67107887 * 2 * (m + 1) - a0 = b0 := by rw [← k0, Nat.add_sub_cancel]
  obtain ⟨b1, k1⟩ : ∃ b, b + a1 = 67108799 * 2 * (m + 1) := ⟨67108799 * 2 * (m + 1) - a1, by omega⟩
  have j1 : 67108799 * 2 * (m + 1) - a1 = b1 := by rw [← k1, Nat.add_sub_cancel]
  obtain ⟨b2, k2⟩ : ∃ b, b + a2 = 67108863 * 2 * (m + 1) := ⟨67108863 * 2 * (m + 1) - a2, by omega⟩
  have j2 : 67108863 * 2 * (m + 1) - a2 = b2 := by rw [← k2, Nat.add_sub_cancel]
  obtain ⟨b3, k3⟩ : ∃ b, b + a3 = 67108863 * 2 * (m + 1) := ⟨67108863 * 2 * (m + 1) - a3, by omega⟩
  have j3 : 67108863 * 2 * (m + 1) - a3 = b3 := by rw [← k3, Nat.add_sub_cancel]
  obtain ⟨b4, k4⟩ : ∃ b, b + a4 = 67108863 * 2 * (m + 1) := ⟨67108863 * 2 * (m + 1) - a4, by omega⟩
  have j4 : 67108863 * 2 * (m + 1) - a4 = b4 := by rw [← k4, Nat.add_sub_cancel]
  obtain ⟨b5, k5⟩ : ∃ b, b + a5 = 67108863 * 2 * (m + 1) := ⟨67108863 * 2 * (m + 1) - a5, by omega⟩
  have j5 : 67108863 * 2 * (m + 1) - a5 = b5 := by rw [← k5, Nat.add_sub_cancel]
  obtain ⟨b6, k6⟩ : ∃ b, b + a6 = 67108863 * 2 * (m + 1) := ⟨67108863 * 2 * (m + 1) - a6, by omega⟩
  have j6 : 67108863 * 2 * (m + 1) - a6 = b6 := by rw [← k6, Nat.add_sub_cancel]
  obtain ⟨b7, k7⟩ : ∃ b, b + a7 = 67108863 * 2 * (m + 1) := ⟨67108863 * 2 * (m + 1) - a7, by omega⟩
  have j7 : 67108863 * 2 * (m + 1) - a7 = b7 := by rw [← k7, Nat.add_sub_cancel]
  obtain ⟨b8, k8⟩ : ∃ b, b + a8 = 67108863 * 2 * (m + 1) := ⟨67108863 * 2 * (m + 1) - a8, by omega⟩
  have j8 : 67108863 * 2 * (m + 1) - a8 = b8 := by rw [← k8, Nat.add_sub_cancel]
  obtain ⟨b9, k9⟩ : ∃ b, b + a9 = 4194303 * 2 * (m + 1) := ⟨4194303 * 2 * (m + 1) - a9, by omega⟩
  have j9 : 4194303 * 2 * (m + 1) - a9 = b9 := by rw [← k9, Nat.add_sub_cancel]
  simp only [j0, j1, j2, j3, j4, j5, j6, j7, j8, j9]
  clear h0 s0 j0 h1 s1 j1 h2 s2 j2 h3 s3 j3 h4 s4 j4 h5 s5 j5 h6 s6 j6 h7 s7 j7 h8 s8 j8 h9 s9 j9 e0 e1 e2 e3
  unfold nat p
  simp only
  omega

theorem add_spec {a b : Fe10} {m k : ℕ} (hm : m + k ≤ 32) (ha : a.Mag m) (hb : b.Mag k) :
    (add a b).Mag (m + k) ∧ (add a b).nat = a.nat + b.nat := by
  obtain ⟨h0, h1, h2, h3, h4, h5, h6, h7, h8, h9⟩ := ha
  obtain ⟨g0, g1, g2, g3, g4, g5, g6, g7, g8, g9⟩ := hb
  obtain ⟨a0, a1, a2, a3, a4, a5, a6, a7, a8, a9⟩ := a
  obtain ⟨b0, b1, b2, b3, b4, b5, b6, b7, b8, b9⟩ := b
  simp only at h0 g0 h1 g1 h2 g2 h3 g3 h4 g4 h5 g5 h6 g6 h7 g7 h8 g8 h9 g9
  have e0 : u32 (a0 + b0) = a0 + b0 := Nat.mod_eq_of_lt (by clear * - hm h0 g0; omega)
  have e1 : u32 (a1 + b1) = a1 + b1 := Nat.mod_eq_of_lt (by clear * - hm h1 g1; omega)
  have e2 : u32 (a2 + b2) = a2 + b2 := Nat.mod_eq_of_lt (by clear * - hm h2 g2; omega)
  have e3 : u32 (a3 + b3) = a3 + b3 := Nat.mod_eq_of_lt (by clear * - hm h3 g3; omega)
  have e4 : u32 (a4 + b4) = a4 + b4 := Nat.mod_eq_of_lt (by clear * - hm h4 g4; omega)
  have e5 : u32 (a5 + b5) = a5 + b5 := Nat.mod_eq_of_lt (by clear * - hm h5 g5; omega)
  have e6 : u32 (a6 + b6) = a6 + b6 := Nat.mod_eq_of_lt (by clear * - hm h6 g6; omega)
  have e7 : u32 (a7 + b7) = a7 + b7 := Nat.mod_eq_of_lt (by clear * - hm h7 g7; omega)
  have e8 : u32 (a8 + b8) = a8 + b8 := Nat.mod_eq_of_lt (by clear * - hm h8 g8; omega)
  have e9 : u32 (a9 + b9) = a9 + b9 := Nat.mod_eq_of_lt (by clear * - hm h9 g9; omega)
  unfold add
  simp only [e0, e1, e2, e3, e4, e5, e6, e7, e8, e9]
  refine ⟨⟨by simp only; clear * - h0 g0; omega, by simp only; clear * - h1 g1; omega, by simp only; clear * - h2 g2; omega, by simp only; clear * - h3 g3; omega, by simp only; clear * - h4 g4; omega, by simp only; clear * - h5 g5; omega, by simp only; clear * - h6 g6; omega, by simp only; clear * - h7 g7; omega, by simp only; clear * - h8 g8; omega, by simp only; clear * - h9 g9; omega⟩, ?_⟩
  unfold nat
  simp only
  ring

theorem mulInt_spec {a : Fe10} {m k : ℕ} (hm : m * k ≤ 32) (ha : a.Mag m) :
    (mulInt a k).Mag (m * k) ∧ (mulInt a k).nat = a.nat * k := by
  obtain ⟨h0, h1, h2, h3, h4, h5, h6, h7, h8, h9⟩ := ha
  obtain ⟨a0, a1, a2, a3, a4, a5, a6, a7, a8, a9⟩ := a
  simp only at h0 h1 h2 h3 h4 h5 h6 h7 h8 h9
  have hb : ∀ {x y : ℕ}, x ≤ 2 * m * y → x * k ≤ 2 * (m * k) * y := by
    intro x y h
    calc x * k ≤ 2 * m * y * k := Nat.mul_le_mul_right _ h
      _ = _ := by ring
  replace h0 := hb h0
  replace h1 := hb h1
  replace h2 := hb h2
  replace h3 := hb h3
  replace h4 := hb h4
  replace h5 := hb h5
  replace h6 := hb h6
  replace h7 := hb h7
  replace h8 := hb h8
  replace h9 := hb h9
  have e0 : u32 (a0 * k) = a0 * k := Nat.mod_eq_of_lt (by clear * - hm h0; omega)
  have e1 : u32 (a1 * k) = a1 * k := Nat.mod_eq_of_lt (by clear * - hm h1; omega)
  have e2 : u32 (a2 * k) = a2 * k := Nat.mod_eq_of_lt (by clear * - hm h2; omega)
  have e3 : u32 (a3 * k) = a3 * k := Nat.mod_eq_of_lt (by clear * - hm h3; omega)
  have e4 : u32 (a4 * k) = a4 * k := Nat.mod_eq_of_lt (by clear * - hm h4; omega)
  have e5 : u32 (a5 * k) = a5 * k := Nat.mod_eq_of_lt (by clear * - hm h5; omega)
  have e6 : u32 (a6 * k) = a6 * k := Nat.mod_eq_of_lt (by clear * - hm h6; omega)
  have e7 : u32 (a7 * k) = a7 * k := Nat.mod_eq_of_lt (by clear * - hm h7; omega)
  have e8 : u32 (a8 * k) = a8 * k := Nat.mod_eq_of_lt (by clear * - hm h8; omega)
  have e9 : u32 (a9 * k) = a9 * k := Nat.mod_eq_of_lt (by clear * - hm h9; omega)
  unfold mulInt
  simp only [e0, e1, e2, e3, e4, e5, e6, e7, e8, e9]
  refine ⟨⟨h0, h1, h2, h3, h4, h5, h6, h7, h8, h9⟩, ?_⟩
  unfold nat
  simp only
  ring

theorem addInt_spec {a : Fe10} {m k : ℕ} (hm : m ≤ 31) (hk : k ≤ 0x7FFF) (ha : a.Mag m) :
    (addInt a k).Mag (m + 1) ∧ (addInt a k).nat = a.nat + k := by
  obtain ⟨h0, h1, h2, h3, h4, h5, h6, h7, h8, h9⟩ := ha
  obtain ⟨a0, a1, a2, a3, a4, a5, a6, a7, a8, a9⟩ := a
  simp only at h0 h1 h2 h3 h4 h5 h6 h7 h8 h9
  have e0 : u32 (a0 + k) = a0 + k := Nat.mod_eq_of_lt (by omega)
  unfold addInt
  simp only [e0]
  have g : ∀ {x y : ℕ}, x ≤ 2 * m * y → x ≤ 2 * (m + 1) * y := fun h => h.trans (by gcongr; omega)
  refine ⟨⟨by simp only; omega, g h1, g h2, g h3, g h4, g h5, g h6, g h7, g h8, g h9⟩, ?_⟩
  unfold nat
  simp only
  ring

theorem setInt_spec {k : ℕ} (hk : k ≤ 0x7FFF) : (setInt k).Norm ∧ (setInt k).nat = k := by
  have e0 : u32 k = k := Nat.mod_eq_of_lt (by omega)
  unfold setInt
  rw [e0]
  refine ⟨⟨by simp only; omega, by simp, by simp, by simp, by simp, by simp, by simp, by simp, by simp, ?_⟩, ?_⟩
  · unfold nat p
    simp only
    omega
  · unfold nat
    simp

theorem cmovLimb_zero {r a : ℕ} (hr : r < 2 ^ 32) : cmovLimb r a 0 = r := by
  unfold cmovLimb
  have e : u32 (0 + (2 ^ 32 - 1)) = 2 ^ 32 - 1 := by decide
  simp only [e]
  rw [Nat.xor_self, Nat.and_zero, Nat.or_zero, Nat.and_two_pow_sub_one_eq_mod, Nat.mod_eq_of_lt hr]

theorem cmovLimb_one {r a : ℕ} (ha : a < 2 ^ 32) : cmovLimb r a 1 = a := by
  unfold cmovLimb
  have e : u32 (1 + (2 ^ 32 - 1)) = 0 := by decide
  simp only [e]
  rw [Nat.xor_zero, Nat.and_zero, Nat.zero_or, Nat.and_two_pow_sub_one_eq_mod, Nat.mod_eq_of_lt ha]

theorem Mag.lt32 {a : Fe10} (h : a.Mag 32) :
    a.n0 < 2 ^ 32 ∧ a.n1 < 2 ^ 32 ∧ a.n2 < 2 ^ 32 ∧ a.n3 < 2 ^ 32 ∧ a.n4 < 2 ^ 32 ∧ a.n5 < 2 ^ 32 ∧ a.n6 < 2 ^ 32 ∧ a.n7 < 2 ^ 32 ∧ a.n8 < 2 ^ 32 ∧ a.n9 < 2 ^ 32 := by
  obtain ⟨h0, h1, h2, h3, h4, h5, h6, h7, h8, h9⟩ := h
  refine ⟨?_, ?_, ?_, ?_, ?_, ?_, ?_, ?_, ?_, ?_⟩ <;> omega

theorem cmov_spec {r a : Fe10} (hr : r.Mag 32) (ha : a.Mag 32) (flag : Bool) :
    cmov r a (if flag then 1 else 0) = if flag then a else r := by
  obtain ⟨r0, r1, r2, r3, r4, r5, r6, r7, r8, r9⟩ := hr.lt32
  obtain ⟨a0, a1, a2, a3, a4, a5, a6, a7, a8, a9⟩ := ha.lt32
  cases flag
  · simp only [Bool.false_eq_true, if_false]
    unfold cmov
    rw [cmovLimb_zero r0, cmovLimb_zero r1, cmovLimb_zero r2, cmovLimb_zero r3, cmovLimb_zero r4, cmovLimb_zero r5, cmovLimb_zero r6, cmovLimb_zero r7, cmovLimb_zero r8, cmovLimb_zero r9]
  · simp only [if_true]
    unfold cmov
    rw [cmovLimb_one a0, cmovLimb_one a1, cmovLimb_one a2, cmovLimb_one a3, cmovLimb_one a4, cmovLimb_one a5, cmovLimb_one a6, cmovLimb_one a7, cmovLimb_one a8, cmovLimb_one a9]

theorem half_combine {t0 h0 l0 t1 h1 l1 t2 h2 l2 t3 h3 l3 t4 h4 l4 t5 h5 l5 t6 h6 l6 t7 h7 l7 t8 h8 l8 t9 h9 l9 : ℕ}
    (e0 : t0 = 2 * h0 + l0) (e1 : t1 = 2 * h1 + l1) (e2 : t2 = 2 * h2 + l2) (e3 : t3 = 2 * h3 + l3) (e4 : t4 = 2 * h4 + l4) (e5 : t5 = 2 * h5 + l5) (e6 : t6 = 2 * h6 + l6) (e7 : t7 = 2 * h7 + l7) (e8 : t8 = 2 * h8 + l8) (e9 : t9 = 2 * h9 + l9) (z : l0 = 0) :
    2 * ((h0 + l1 * 2 ^ 25) + (h1 + l2 * 2 ^ 25) * 2 ^ 26 + (h2 + l3 * 2 ^ 25) * 2 ^ 52 + (h3 + l4 * 2 ^ 25) * 2 ^ 78 + (h4 + l5 * 2 ^ 25) * 2 ^ 104 + (h5 + l6 * 2 ^ 25) * 2 ^ 130 + (h6 + l7 * 2 ^ 25) * 2 ^ 156 + (h7 + l8 * 2 ^ 25) * 2 ^ 182 + (h8 + l9 * 2 ^ 25) * 2 ^ 208 + h9 * 2 ^ 234) =
      t0 + t1 * 2 ^ 26 + t2 * 2 ^ 52 + t3 * 2 ^ 78 + t4 * 2 ^ 104 + t5 * 2 ^ 130 + t6 * 2 ^ 156 + t7 * 2 ^ 182 + t8 * 2 ^ 208 + t9 * 2 ^ 234 := by
  subst e0 e1 e2 e3 e4 e5 e6 e7 e8 e9 z
  ring

theorem half_tail {m t0 t1 t2 t3 t4 t5 t6 t7 t8 t9 : ℕ} (hm : m ≤ 31)
    (b0 : t0 ≤ (2 * m + 1) * (2 ^ 26 - 1)) (b1 : t1 ≤ (2 * m + 1) * (2 ^ 26 - 1)) (b2 : t2 ≤ (2 * m + 1) * (2 ^ 26 - 1)) (b3 : t3 ≤ (2 * m + 1) * (2 ^ 26 - 1)) (b4 : t4 ≤ (2 * m + 1) * (2 ^ 26 - 1)) (b5 : t5 ≤ (2 * m + 1) * (2 ^ 26 - 1)) (b6 : t6 ≤ (2 * m + 1) * (2 ^ 26 - 1)) (b7 : t7 ≤ (2 * m + 1) * (2 ^ 26 - 1)) (b8 : t8 ≤ (2 * m + 1) * (2 ^ 26 - 1)) (b9 : t9 ≤ (2 * m + 1) * (2 ^ 22 - 1)) (g0 : t0 % 2 = 0) :
    let r : Fe10 := ⟨u32 (t0 / 2 ^ 1 + t1 % 2 * 2 ^ 25), u32 (t1 / 2 ^ 1 + t2 % 2 * 2 ^ 25), u32 (t2 / 2 ^ 1 + t3 % 2 * 2 ^ 25), u32 (t3 / 2 ^ 1 + t4 % 2 * 2 ^ 25), u32 (t4 / 2 ^ 1 + t5 % 2 * 2 ^ 25), u32 (t5 / 2 ^ 1 + t6 % 2 * 2 ^ 25), u32 (t6 / 2 ^ 1 + t7 % 2 * 2 ^ 25), u32 (t7 / 2 ^ 1 + t8 % 2 * 2 ^ 25), u32 (t8 / 2 ^ 1 + t9 % 2 * 2 ^ 25), t9 / 2 ^ 1⟩
    r.Mag (m / 2 + 1) ∧ 2 * r.nat = t0 + t1 * 2 ^ 26 + t2 * 2 ^ 52 + t3 * 2 ^ 78 + t4 * 2 ^ 104 + t5 * 2 ^ 130 + t6 * 2 ^ 156 + t7 * 2 ^ 182 + t8 * 2 ^ 208 + t9 * 2 ^ 234 := by
  have hB : (2 * m + 1) * (2 ^ 26 - 1) < 2 ^ 32 - 2 ^ 25 := by clear * - hm; omega
  have k0 : u32 (t0 / 2 ^ 1 + t1 % 2 * 2 ^ 25) = t0 / 2 + t1 % 2 * 2 ^ 25 := Nat.mod_eq_of_lt (by clear * - b0 hB; omega)
  have k1 : u32 (t1 / 2 ^ 1 + t2 % 2 * 2 ^ 25) = t1 / 2 + t2 % 2 * 2 ^ 25 := Nat.mod_eq_of_lt (by clear * - b1 hB; omega)
  have k2 : u32 (t2 / 2 ^ 1 + t3 % 2 * 2 ^ 25) = t2 / 2 + t3 % 2 * 2 ^ 25 := Nat.mod_eq_of_lt (by clear * - b2 hB; omega)
  have k3 : u32 (t3 / 2 ^ 1 + t4 % 2 * 2 ^ 25) = t3 / 2 + t4 % 2 * 2 ^ 25 := Nat.mod_eq_of_lt (by clear * - b3 hB; omega)
  have k4 : u32 (t4 / 2 ^ 1 + t5 % 2 * 2 ^ 25) = t4 / 2 + t5 % 2 * 2 ^ 25 := Nat.mod_eq_of_lt (by clear * - b4 hB; omega)
  have k5 : u32 (t5 / 2 ^ 1 + t6 % 2 * 2 ^ 25) = t5 / 2 + t6 % 2 * 2 ^ 25 := Nat.mod_eq_of_lt (by clear * - b5 hB; omega)
  have k6 : u32 (t6 / 2 ^ 1 + t7 % 2 * 2 ^ 25) = t6 / 2 + t7 % 2 * 2 ^ 25 := Nat.mod_eq_of_lt (by clear * - b6 hB; omega)
  have k7 : u32 (t7 / 2 ^ 1 + t8 % 2 * 2 ^ 25) = t7 / 2 + t8 % 2 * 2 ^ 25 := Nat.mod_eq_of_lt (by clear * - b7 hB; omega)
  have k8 : u32 (t8 / 2 ^ 1 + t9 % 2 * 2 ^ 25) = t8 / 2 + t9 % 2 * 2 ^ 25 := Nat.mod_eq_of_lt (by clear * - b8 hB; omega)
  intro r
  simp only [r, k0, k1, k2, k3, k4, k5, k6, k7, k8]
  refine ⟨⟨by simp only; clear * - b0; omega, by simp only; clear * - b1; omega, by simp only; clear * - b2; omega, by simp only; clear * - b3; omega, by simp only; clear * - b4; omega, by simp only; clear * - b5; omega, by simp only; clear * - b6; omega, by simp only; clear * - b7; omega, by simp only; clear * - b8; omega, by simp only; clear * - b9; omega⟩, ?_⟩
  unfold nat
  simp only
  exact half_combine (by clear * -; omega) (by clear * -; omega) (by clear * -; omega) (by clear * -; omega) (by clear * -; omega) (by clear * -; omega) (by clear * -; omega) (by clear * -; omega) (by clear * -; omega) (by clear * -; omega) g0

theorem half_spec {a : Fe10} {m : ℕ} (hm : m ≤ 31) (h : a.Mag m) :
    a.half.Mag (m / 2 + 1) ∧ ∃ x, x ≤ 1 ∧ 2 * a.half.nat = a.nat + x * p := by
  obtain ⟨h0, h1, h2, h3, h4, h5, h6, h7, h8, h9⟩ := h
  obtain ⟨a0, a1, a2, a3, a4, a5, a6, a7, a8, a9⟩ := a
  simp only at h0 h1 h2 h3 h4 h5 h6 h7 h8 h9
  have hmask : ∃ x, x = a0 % 2 ∧ sub32 0 (a0 &&& 1) >>> 6 = x * (2 ^ 26 - 1) ∧
      0x3FFFC2F &&& (x * (2 ^ 26 - 1)) = x * 0x3FFFC2F ∧ 0x3FFFFBF &&& (x * (2 ^ 26 - 1)) = x * 0x3FFFFBF ∧
      (x * (2 ^ 26 - 1)) >>> 4 = x * (2 ^ 22 - 1) := by
    rw [land_one']
    refine ⟨a0 % 2, rfl, ?_, ?_, ?_, ?_⟩ <;>
      rcases Nat.mod_two_eq_zero_or_one a0 with e | e <;> rw [e] <;> decide
  obtain ⟨x, hx, e1, e2, e3, e4⟩ := hmask
  unfold half
  simp only [e1, e2, e3, e4]
  simp only [land_one', Nat.shiftRight_eq_div_pow, Nat.shiftLeft_eq]
  have hx1 : x ≤ 1 := by omega
  have f0 : u32 (a0 + x * 0x3FFFC2F) = a0 + x * 0x3FFFC2F := Nat.mod_eq_of_lt (by clear * - hx1 h0 hm; omega)
  have f1 : u32 (a1 + x * 0x3FFFFBF) = a1 + x * 0x3FFFFBF := Nat.mod_eq_of_lt (by clear * - hx1 h1 hm; omega)
  have f2 : u32 (a2 + x * (2 ^ 26 - 1)) = a2 + x * (2 ^ 26 - 1) := Nat.mod_eq_of_lt (by clear * - hx1 h2 hm; omega)
  have f3 : u32 (a3 + x * (2 ^ 26 - 1)) = a3 + x * (2 ^ 26 - 1) := Nat.mod_eq_of_lt (by clear * - hx1 h3 hm; omega)
  have f4 : u32 (a4 + x * (2 ^ 26 - 1)) = a4 + x * (2 ^ 26 - 1) := Nat.mod_eq_of_lt (by clear * - hx1 h4 hm; omega)
  have f5 : u32 (a5 + x * (2 ^ 26 - 1)) = a5 + x * (2 ^ 26 - 1) := Nat.mod_eq_of_lt (by clear * - hx1 h5 hm; omega)
  have f6 : u32 (a6 + x * (2 ^ 26 - 1)) = a6 + x * (2 ^ 26 - 1) := Nat.mod_eq_of_lt (by clear * - hx1 h6 hm; omega)
  have f7 : u32 (a7 + x * (2 ^ 26 - 1)) = a7 + x * (2 ^ 26 - 1) := Nat.mod_eq_of_lt (by clear * - hx1 h7 hm; omega)
  have f8 : u32 (a8 + x * (2 ^ 26 - 1)) = a8 + x * (2 ^ 26 - 1) := Nat.mod_eq_of_lt (by clear * - hx1 h8 hm; omega)
  have f9 : u32 (a9 + x * (2 ^ 22 - 1)) = a9 + x * (2 ^ 22 - 1) := Nat.mod_eq_of_lt (by clear * - hx1 h9 hm; omega)
  rw [f0, f1, f2, f3, f4, f5, f6, f7, f8, f9]
  have g0 : (a0 + x * 0x3FFFC2F) % 2 = 0 := by clear * - hx; omega
  have b0 : a0 + x * 0x3FFFC2F ≤ (2 * m + 1) * (2 ^ 26 - 1) := by clear * - hx1 h0; omega
  have b1 : a1 + x * 0x3FFFFBF ≤ (2 * m + 1) * (2 ^ 26 - 1) := by clear * - hx1 h1; omega
  have b2 : a2 + x * (2 ^ 26 - 1) ≤ (2 * m + 1) * (2 ^ 26 - 1) := by clear * - hx1 h2; omega
  have b3 : a3 + x * (2 ^ 26 - 1) ≤ (2 * m + 1) * (2 ^ 26 - 1) := by clear * - hx1 h3; omega
  have b4 : a4 + x * (2 ^ 26 - 1) ≤ (2 * m + 1) * (2 ^ 26 - 1) := by clear * - hx1 h4; omega
  have b5 : a5 + x * (2 ^ 26 - 1) ≤ (2 * m + 1) * (2 ^ 26 - 1) := by clear * - hx1 h5; omega
  have b6 : a6 + x * (2 ^ 26 - 1) ≤ (2 * m + 1) * (2 ^ 26 - 1) := by clear * - hx1 h6; omega
  have b7 : a7 + x * (2 ^ 26 - 1) ≤ (2 * m + 1) * (2 ^ 26 - 1) := by clear * - hx1 h7; omega
  have b8 : a8 + x * (2 ^ 26 - 1) ≤ (2 * m + 1) * (2 ^ 26 - 1) := by clear * - hx1 h8; omega
  have b9 : a9 + x * (2 ^ 22 - 1) ≤ (2 * m + 1) * (2 ^ 22 - 1) := by clear * - hx1 h9; omega
  have key : a0 + a1 * 2 ^ 26 + a2 * 2 ^ 52 + a3 * 2 ^ 78 + a4 * 2 ^ 104 + a5 * 2 ^ 130 + a6 * 2 ^ 156 + a7 * 2 ^ 182 + a8 * 2 ^ 208 + a9 * 2 ^ 234 + x * p =
      (a0 + x * 0x3FFFC2F) + (a1 + x * 0x3FFFFBF) * 2 ^ 26 + (a2 + x * (2 ^ 26 - 1)) * 2 ^ 52 + (a3 + x * (2 ^ 26 - 1)) * 2 ^ 78 + (a4 + x * (2 ^ 26 - 1)) * 2 ^ 104 + (a5 + x * (2 ^ 26 - 1)) * 2 ^ 130 + (a6 + x * (2 ^ 26 - 1)) * 2 ^ 156 + (a7 + x * (2 ^ 26 - 1)) * 2 ^ 182 + (a8 + x * (2 ^ 26 - 1)) * 2 ^ 208 + (a9 + x * (2 ^ 22 - 1)) * 2 ^ 234 := by
    unfold p
    clear * -
    omega
  have T := half_tail hm b0 b1 b2 b3 b4 b5 b6 b7 b8 b9 g0
  refine ⟨T.1, x, hx1, ?_⟩
  rw [T.2]
  unfold nat
  exact key.symm

/-- The limbs set from 32 bytes. -/
theorem or4 {b0 b1 b2 b3 k : ℕ} (h0 : b0 < 2 ^ k) (h1 : b1 < 2 ^ 8) (h2 : b2 < 2 ^ 8) :
    b0 ||| (b1 <<< k) ||| (b2 <<< (k + 8)) ||| (b3 <<< (k + 16)) =
      b0 + b1 * 2 ^ k + b2 * 2 ^ (k + 8) + b3 * 2 ^ (k + 16) := by
  have e1 : b0 + b1 * 2 ^ k < 2 ^ (k + 8) := by
    rw [pow_add]
    have : (b1 + 1) * 2 ^ k ≤ 2 ^ 8 * 2 ^ k := Nat.mul_le_mul_right _ h1
    rw [Nat.succ_mul] at this
    omega
  have e2 : b0 + b1 * 2 ^ k + b2 * 2 ^ (k + 8) < 2 ^ (k + 16) := by
    rw [show k + 16 = k + 8 + 8 from rfl, pow_add 2 (k + 8)]
    have : (b2 + 1) * 2 ^ (k + 8) ≤ 2 ^ 8 * 2 ^ (k + 8) := Nat.mul_le_mul_right _ h2
    rw [Nat.succ_mul] at this
    omega
  rw [or_shl h0, or_shl e1, or_shl e2]

theorem or3 {b0 b1 b2 k : ℕ} (h0 : b0 < 2 ^ k) (h1 : b1 < 2 ^ 8) :
    b0 ||| (b1 <<< k) ||| (b2 <<< (k + 8)) = b0 + b1 * 2 ^ k + b2 * 2 ^ (k + 8) := by
  have e1 : b0 + b1 * 2 ^ k < 2 ^ (k + 8) := by
    rw [pow_add]
    have : (b1 + 1) * 2 ^ k ≤ 2 ^ 8 * 2 ^ k := Nat.mul_le_mul_right _ h1
    rw [Nat.succ_mul] at this
    omega
  rw [or_shl h0, or_shl e1]

theorem land_3 (x : ℕ) : x &&& 0x3 = x % 2 ^ 2 := Nat.and_two_pow_sub_one_eq_mod x 2
theorem land_3f (x : ℕ) : x &&& 0x3f = x % 2 ^ 6 := Nat.and_two_pow_sub_one_eq_mod x 6

/-- The limbs set from 32 bytes. -/
theorem setB32Mod_spec (a : ℕ → ℕ) (ha : ∀ i, a i < 2 ^ 8) :
    (setB32Mod a).Low ∧ (setB32Mod a).n9 < 2 ^ 22 ∧
      (setB32Mod a).nat = a 31 + a 30 * 2 ^ 8 + a 29 * 2 ^ 16 + a 28 * 2 ^ 24 + a 27 * 2 ^ 32 + a 26 * 2 ^ 40 + a 25 * 2 ^ 48 + a 24 * 2 ^ 56 + a 23 * 2 ^ 64 + a 22 * 2 ^ 72 + a 21 * 2 ^ 80 + a 20 * 2 ^ 88 + a 19 * 2 ^ 96 + a 18 * 2 ^ 104 + a 17 * 2 ^ 112 + a 16 * 2 ^ 120 + a 15 * 2 ^ 128 + a 14 * 2 ^ 136 + a 13 * 2 ^ 144 + a 12 * 2 ^ 152 + a 11 * 2 ^ 160 + a 10 * 2 ^ 168 + a 9 * 2 ^ 176 + a 8 * 2 ^ 184 + a 7 * 2 ^ 192 + a 6 * 2 ^ 200 + a 5 * 2 ^ 208 + a 4 * 2 ^ 216 + a 3 * 2 ^ 224 + a 2 * 2 ^ 232 + a 1 * 2 ^ 240 + a 0 * 2 ^ 248 := by
  have h0 := ha 0
  have h1 := ha 1
  have h2 := ha 2
  have h3 := ha 3
  have h4 := ha 4
  have h5 := ha 5
  have h6 := ha 6
  have h7 := ha 7
  have h8 := ha 8
  have h9 := ha 9
  have h10 := ha 10
  have h11 := ha 11
  have h12 := ha 12
  have h13 := ha 13
  have h14 := ha 14
  have h15 := ha 15
  have h16 := ha 16
  have h17 := ha 17
  have h18 := ha 18
  have h19 := ha 19
  have h20 := ha 20
  have h21 := ha 21
  have h22 := ha 22
  have h23 := ha 23
  have h24 := ha 24
  have h25 := ha 25
  have h26 := ha 26
  have h27 := ha 27
  have h28 := ha 28
  have h29 := ha 29
  have h30 := ha 30
  have h31 := ha 31
  have m28 : a 28 / 2 ^ 2 % 2 ^ 6 = a 28 / 2 ^ 2 := Nat.mod_eq_of_lt (by clear * - h28; omega)
  have s28 : a 28 = a 28 / 2 ^ 2 * 2 ^ 2 + a 28 % 2 ^ 2 := by clear * -; omega
  have l28 : a 28 % 2 ^ 2 < 2 ^ 2 := Nat.mod_lt _ (by norm_num)
  have u28 : a 28 / 2 ^ 2 < 2 ^ 6 := by clear * - h28; omega
  have m25 : a 25 / 2 ^ 4 % 2 ^ 4 = a 25 / 2 ^ 4 := Nat.mod_eq_of_lt (by clear * - h25; omega)
  have s25 : a 25 = a 25 / 2 ^ 4 * 2 ^ 4 + a 25 % 2 ^ 4 := by clear * -; omega
  have l25 : a 25 % 2 ^ 4 < 2 ^ 4 := Nat.mod_lt _ (by norm_num)
  have u25 : a 25 / 2 ^ 4 < 2 ^ 4 := by clear * - h25; omega
  have m22 : a 22 / 2 ^ 6 % 2 ^ 2 = a 22 / 2 ^ 6 := Nat.mod_eq_of_lt (by clear * - h22; omega)
  have s22 : a 22 = a 22 / 2 ^ 6 * 2 ^ 6 + a 22 % 2 ^ 6 := by clear * -; omega
  have l22 : a 22 % 2 ^ 6 < 2 ^ 6 := Nat.mod_lt _ (by norm_num)
  have u22 : a 22 / 2 ^ 6 < 2 ^ 2 := by clear * - h22; omega
  have m15 : a 15 / 2 ^ 2 % 2 ^ 6 = a 15 / 2 ^ 2 := Nat.mod_eq_of_lt (by clear * - h15; omega)
  have s15 : a 15 = a 15 / 2 ^ 2 * 2 ^ 2 + a 15 % 2 ^ 2 := by clear * -; omega
  have l15 : a 15 % 2 ^ 2 < 2 ^ 2 := Nat.mod_lt _ (by norm_num)
  have u15 : a 15 / 2 ^ 2 < 2 ^ 6 := by clear * - h15; omega
  have m12 : a 12 / 2 ^ 4 % 2 ^ 4 = a 12 / 2 ^ 4 := Nat.mod_eq_of_lt (by clear * - h12; omega)
  have s12 : a 12 = a 12 / 2 ^ 4 * 2 ^ 4 + a 12 % 2 ^ 4 := by clear * -; omega
  have l12 : a 12 % 2 ^ 4 < 2 ^ 4 := Nat.mod_lt _ (by norm_num)
  have u12 : a 12 / 2 ^ 4 < 2 ^ 4 := by clear * - h12; omega
  have m9 : a 9 / 2 ^ 6 % 2 ^ 2 = a 9 / 2 ^ 6 := Nat.mod_eq_of_lt (by clear * - h9; omega)
  have s9 : a 9 = a 9 / 2 ^ 6 * 2 ^ 6 + a 9 % 2 ^ 6 := by clear * -; omega
  have l9 : a 9 % 2 ^ 6 < 2 ^ 6 := Nat.mod_lt _ (by norm_num)
  have u9 : a 9 / 2 ^ 6 < 2 ^ 2 := by clear * - h9; omega
  have m2 : a 2 / 2 ^ 2 % 2 ^ 6 = a 2 / 2 ^ 2 := Nat.mod_eq_of_lt (by clear * - h2; omega)
  have s2 : a 2 = a 2 / 2 ^ 2 * 2 ^ 2 + a 2 % 2 ^ 2 := by clear * -; omega
  have l2 : a 2 % 2 ^ 2 < 2 ^ 2 := Nat.mod_lt _ (by norm_num)
  have u2 : a 2 / 2 ^ 2 < 2 ^ 6 := by clear * - h2; omega
  have key : setB32Mod a = ⟨a 31 + a 30 * 2 ^ 8 + a 29 * 2 ^ 16 + a 28 % 2 ^ 2 * 2 ^ 24,
      a 28 / 2 ^ 2 + a 27 * 2 ^ 6 + a 26 * 2 ^ 14 + a 25 % 2 ^ 4 * 2 ^ 22,
      a 25 / 2 ^ 4 + a 24 * 2 ^ 4 + a 23 * 2 ^ 12 + a 22 % 2 ^ 6 * 2 ^ 20,
      a 22 / 2 ^ 6 + a 21 * 2 ^ 2 + a 20 * 2 ^ 10 + a 19 * 2 ^ 18,
      a 18 + a 17 * 2 ^ 8 + a 16 * 2 ^ 16 + a 15 % 2 ^ 2 * 2 ^ 24,
      a 15 / 2 ^ 2 + a 14 * 2 ^ 6 + a 13 * 2 ^ 14 + a 12 % 2 ^ 4 * 2 ^ 22,
      a 12 / 2 ^ 4 + a 11 * 2 ^ 4 + a 10 * 2 ^ 12 + a 9 % 2 ^ 6 * 2 ^ 20,
      a 9 / 2 ^ 6 + a 8 * 2 ^ 2 + a 7 * 2 ^ 10 + a 6 * 2 ^ 18,
      a 5 + a 4 * 2 ^ 8 + a 3 * 2 ^ 16 + a 2 % 2 ^ 2 * 2 ^ 24,
      a 2 / 2 ^ 2 + a 1 * 2 ^ 6 + a 0 * 2 ^ 14⟩ := by
    unfold setB32Mod
    simp only [land_3, land_3f, land_f, Nat.shiftRight_eq_div_pow, m28, m25, m22, m15, m12, m9, m2]
    rw [or4 (k := 8) h31 h30 h29, or4 (k := 6) u28 h27 h26, or4 (k := 4) u25 h24 h23, or4 (k := 2) u22 h21 h20,
      or4 (k := 8) h18 h17 h16, or4 (k := 6) u15 h14 h13, or4 (k := 4) u12 h11 h10, or4 (k := 2) u9 h8 h7,
      or4 (k := 8) h5 h4 h3, or3 (k := 6) u2 h1]
  rw [key]
  refine ⟨⟨?_, ?_, ?_, ?_, ?_, ?_, ?_, ?_, ?_⟩, ?_, ?_⟩
  · try simp only
    clear * - h31 h30 h29 l28 u28; omega
  · try simp only
    clear * - l28 u28 h27 h26 l25 u25; omega
  · try simp only
    clear * - l25 u25 h24 h23 l22 u22; omega
  · try simp only
    clear * - l22 u22 h21 h20 h19; omega
  · try simp only
    clear * - h18 h17 h16 l15 u15; omega
  · try simp only
    clear * - l15 u15 h14 h13 l12 u12; omega
  · try simp only
    clear * - l12 u12 h11 h10 l9 u9; omega
  · try simp only
    clear * - l9 u9 h8 h7 h6; omega
  · try simp only
    clear * - h5 h4 h3 l2 u2; omega
  · try simp only
    clear * - l2 u2 h1 h0; omega
  · unfold nat
    simp only
    conv_rhs => rw [s28]
    conv_rhs => rw [s25]
    conv_rhs => rw [s22]
    conv_rhs => rw [s15]
    conv_rhs => rw [s12]
    conv_rhs => rw [s9]
    conv_rhs => rw [s2]
    ring

theorem isZero_spec (a : Fe10) : a.isZero = decide (a.nat = 0) := by
  unfold isZero
  apply decide_eq_decide.2
  simp only [Nat.or_eq_zero_iff]
  unfold nat
  omega

theorem isOdd_spec (a : Fe10) : a.isOdd = decide (a.nat % 2 = 1) := by
  unfold isOdd
  apply decide_eq_decide.2
  rw [land_one']
  unfold nat
  omega

theorem setB32LimitRet_spec {a : Fe10} (hl : a.Low) (h9 : a.n9 < 2 ^ 22) :
    a.setB32LimitRet = decide (a.nat < p) := by
  have hn := needsReduce_spec ⟨hl, by omega⟩
  have hm : a.n8 &&& a.n7 &&& a.n6 &&& a.n5 &&& a.n4 &&& a.n3 &&& a.n2 = a.mid := by
    unfold mid
    ac_rfl
  have e9 : a.n9 >>> 22 = 0 := by rw [Nat.shiftRight_eq_div_pow]; exact Nat.div_eq_of_lt h9
  unfold setB32LimitRet
  rw [hm, ← Bool.decide_and, ← Bool.decide_and, ← decide_not]
  apply decide_eq_decide.2
  unfold needsReduce at hn
  rw [e9, Nat.zero_or] at hn
  by_cases hp : p ≤ a.nat
  · rw [if_pos hp] at hn
    have : ¬ a.nat < p := by omega
    simp only [this, iff_false, not_not]
    by_contra hc
    have : (if a.n9 = m22 then 1 else 0) &&& (if a.mid = m26 then 1 else 0) &&&
      (if a.n1 + 0x40 + ((a.n0 + 0x3D1) >>> 26) > m26 then 1 else 0) = 0 := by
      rw [and_assoc] at hc
      split_ifs <;> first | rfl | (exfalso; apply hc; exact ⟨by assumption, by assumption, by assumption⟩)
    omega
  · rw [if_neg hp] at hn
    have : a.nat < p := by omega
    simp only [this, iff_true]
    rintro ⟨⟨c1, c2⟩, c3⟩
    rw [if_pos c1, if_pos c2, if_pos c3] at hn
    exact absurd hn (by decide)

theorem cmpVar_spec {a b : Fe10} (ha : a.Norm) (hb : b.Norm) :
    cmpVar a b = if a.nat > b.nat then 1 else if a.nat < b.nat then -1 else 0 := by
  obtain ⟨h0, h1, h2, h3, h4, h5, h6, h7, h8, _⟩ := ha
  obtain ⟨g0, g1, g2, g3, g4, g5, g6, g7, g8, _⟩ := hb
  obtain ⟨a0, a1, a2, a3, a4, a5, a6, a7, a8, a9⟩ := a
  obtain ⟨b0, b1, b2, b3, b4, b5, b6, b7, b8, b9⟩ := b
  simp only at h0 g0 h1 g1 h2 g2 h3 g3 h4 g4 h5 g5 h6 g6 h7 g7 h8 g8
  have e0 : (if a0 > b0 then 1 else if a0 < b0 then -1 else (0 : ℤ)) = Fe5.cmpNat a0 b0 := rfl
  have e1 := Fe5.cmp_step (h := a1) (h' := b1) (B := 2 ^ 26) (by clear * - h0; omega) (by clear * - g0; omega) e0
  have e2 := Fe5.cmp_step (h := a2) (h' := b2) (B := 2 ^ 52) (by clear * - h0 h1; omega) (by clear * - g0 g1; omega) e1
  have e3 := Fe5.cmp_step (h := a3) (h' := b3) (B := 2 ^ 78) (by clear * - h0 h1 h2; omega) (by clear * - g0 g1 g2; omega) e2
  have e4 := Fe5.cmp_step (h := a4) (h' := b4) (B := 2 ^ 104) (by clear * - h0 h1 h2 h3; omega) (by clear * - g0 g1 g2 g3; omega) e3
  have e5 := Fe5.cmp_step (h := a5) (h' := b5) (B := 2 ^ 130) (by clear * - h0 h1 h2 h3 h4; omega) (by clear * - g0 g1 g2 g3 g4; omega) e4
  have e6 := Fe5.cmp_step (h := a6) (h' := b6) (B := 2 ^ 156) (by clear * - h0 h1 h2 h3 h4 h5; omega) (by clear * - g0 g1 g2 g3 g4 g5; omega) e5
  have e7 := Fe5.cmp_step (h := a7) (h' := b7) (B := 2 ^ 182) (by clear * - h0 h1 h2 h3 h4 h5 h6; omega) (by clear * - g0 g1 g2 g3 g4 g5 g6; omega) e6
  have e8 := Fe5.cmp_step (h := a8) (h' := b8) (B := 2 ^ 208) (by clear * - h0 h1 h2 h3 h4 h5 h6 h7; omega) (by clear * - g0 g1 g2 g3 g4 g5 g6 g7; omega) e7
  have e9 := Fe5.cmp_step (h := a9) (h' := b9) (B := 2 ^ 234) (by clear * - h0 h1 h2 h3 h4 h5 h6 h7 h8; omega) (by clear * - g0 g1 g2 g3 g4 g5 g6 g7 g8; omega) e8
  exact e9

/-- A storage value as an integer. -/
def _root_.Secp.Model.FeStorage8.nat (a : FeStorage8) : ℕ :=
  a.n0 + a.n1 * 2 ^ 32 + a.n2 * 2 ^ 64 + a.n3 * 2 ^ 96 + a.n4 * 2 ^ 128 + a.n5 * 2 ^ 160 + a.n6 * 2 ^ 192 + a.n7 * 2 ^ 224

/-- All words of a storage value fit. -/
structure _root_.Secp.Model.FeStorage8.Fits (a : FeStorage8) : Prop where
  n0 : a.n0 < 2 ^ 32
  n1 : a.n1 < 2 ^ 32
  n2 : a.n2 < 2 ^ 32
  n3 : a.n3 < 2 ^ 32
  n4 : a.n4 < 2 ^ 32
  n5 : a.n5 < 2 ^ 32
  n6 : a.n6 < 2 ^ 32
  n7 : a.n7 < 2 ^ 32

theorem toStorage_spec {a : Fe10} (ha : a.Norm) : a.toStorage.nat = a.nat ∧ a.toStorage.Fits := by
  have h9 := ha.n9
  obtain ⟨h0, h1, h2, h3, h4, h5, h6, h7, h8, _⟩ := ha
  obtain ⟨a0, a1, a2, a3, a4, a5, a6, a7, a8, a9⟩ := a
  simp only at h0 h1 h2 h3 h4 h5 h6 h7 h8 h9
  unfold toStorage
  simp only [u32, Nat.shiftRight_eq_div_pow, Nat.shiftLeft_eq]
  rw [Fe5.or_add (k := 26) h0 (by omega), Fe5.or_add (k := 20) (by clear * - h1; omega) (by omega),
    Fe5.or_add (k := 14) (by clear * - h2; omega) (by omega), Fe5.or_add (k := 8) (by clear * - h3; omega) (by omega),
    Fe5.or_add (k := 2) (x := a4 / 2 ^ 24) (by clear * - h4; omega) (by omega),
    Fe5.or_add (k := 28) (by clear * - h4 h5; omega) (by omega),
    Fe5.or_add (k := 22) (by clear * - h6; omega) (by omega), Fe5.or_add (k := 16) (by clear * - h7; omega) (by omega),
    Fe5.or_add (k := 10) (by clear * - h8; omega) (by omega)]
  refine ⟨?_, ?_⟩
  · unfold FeStorage8.nat nat
    simp only
    have e1 : a1 * 2 ^ 26 % 2 ^ 32 = a1 % 2 ^ 6 * 2 ^ 26 := by clear * -; omega
    have e2 : a2 * 2 ^ 20 % 2 ^ 32 = a2 % 2 ^ 12 * 2 ^ 20 := by clear * -; omega
    have e3 : a3 * 2 ^ 14 % 2 ^ 32 = a3 % 2 ^ 18 * 2 ^ 14 := by clear * -; omega
    have e4 : a4 * 2 ^ 8 % 2 ^ 32 = a4 % 2 ^ 24 * 2 ^ 8 := by clear * -; omega
    have e5 : a5 * 2 ^ 2 % 2 ^ 32 = a5 * 2 ^ 2 := by clear * - h5; omega
    have e6 : a6 * 2 ^ 28 % 2 ^ 32 = a6 % 2 ^ 4 * 2 ^ 28 := by clear * -; omega
    have e7 : a7 * 2 ^ 22 % 2 ^ 32 = a7 % 2 ^ 10 * 2 ^ 22 := by clear * -; omega
    have e8 : a8 * 2 ^ 16 % 2 ^ 32 = a8 % 2 ^ 16 * 2 ^ 16 := by clear * -; omega
    have e9 : a9 * 2 ^ 10 % 2 ^ 32 = a9 * 2 ^ 10 := by clear * - h9; omega
    rw [e1, e2, e3, e4, e5, e6, e7, e8, e9]
    have s1 := Nat.div_add_mod a1 (2 ^ 6)
    generalize a1 / 2 ^ 6 = q1 at *
    generalize a1 % 2 ^ 6 = r1 at *
    clear e1
    have s2 := Nat.div_add_mod a2 (2 ^ 12)
    generalize a2 / 2 ^ 12 = q2 at *
    generalize a2 % 2 ^ 12 = r2 at *
    clear e2
    have s3 := Nat.div_add_mod a3 (2 ^ 18)
    generalize a3 / 2 ^ 18 = q3 at *
    generalize a3 % 2 ^ 18 = r3 at *
    clear e3
    have s4 := Nat.div_add_mod a4 (2 ^ 24)
    generalize a4 / 2 ^ 24 = q4 at *
    generalize a4 % 2 ^ 24 = r4 at *
    clear e4
    have s6 := Nat.div_add_mod a6 (2 ^ 4)
    generalize a6 / 2 ^ 4 = q6 at *
    generalize a6 % 2 ^ 4 = r6 at *
    clear e6
    have s7 := Nat.div_add_mod a7 (2 ^ 10)
    generalize a7 / 2 ^ 10 = q7 at *
    generalize a7 % 2 ^ 10 = r7 at *
    clear e7
    have s8 := Nat.div_add_mod a8 (2 ^ 16)
    generalize a8 / 2 ^ 16 = q8 at *
    generalize a8 % 2 ^ 16 = r8 at *
    clear e8
    clear e5 e9 h0 h5 h9
    subst s1 s2 s3 s4 s6 s7 s8
    ring
  · constructor <;> simp only <;> omega

theorem fromStorage_spec {a : FeStorage8} (h : a.Fits) :
    (fromStorage a).nat = a.nat ∧ (fromStorage a).Low ∧ (fromStorage a).n9 < 2 ^ 22 := by
  obtain ⟨h0, h1, h2, h3, h4, h5, h6, h7⟩ := h
  obtain ⟨a0, a1, a2, a3, a4, a5, a6, a7⟩ := a
  simp only at h0 h1 h2 h3 h4 h5 h6 h7
  have e1 : (a1 * 2 ^ 6 % 2 ^ 32) % 2 ^ 26 = a1 % 2 ^ 20 * 2 ^ 6 := by clear * -; omega
  have e2 : (a2 * 2 ^ 12 % 2 ^ 32) % 2 ^ 26 = a2 % 2 ^ 14 * 2 ^ 12 := by clear * -; omega
  have e3 : (a3 * 2 ^ 18 % 2 ^ 32) % 2 ^ 26 = a3 % 2 ^ 8 * 2 ^ 18 := by clear * -; omega
  have e4 : (a4 * 2 ^ 24 % 2 ^ 32) % 2 ^ 26 = a4 % 2 ^ 2 * 2 ^ 24 := by clear * -; omega
  have e5 : (a5 * 2 ^ 4 % 2 ^ 32) % 2 ^ 26 = a5 % 2 ^ 22 * 2 ^ 4 := by clear * -; omega
  have e6 : (a6 * 2 ^ 10 % 2 ^ 32) % 2 ^ 26 = a6 % 2 ^ 16 * 2 ^ 10 := by clear * -; omega
  have e7 : (a7 * 2 ^ 16 % 2 ^ 32) % 2 ^ 26 = a7 % 2 ^ 10 * 2 ^ 16 := by clear * -; omega
  unfold fromStorage
  simp only [u32, land_m26, Nat.shiftRight_eq_div_pow, Nat.shiftLeft_eq]
  rw [e1, e2, e3, e4, e5, e6, e7,
    Fe5.or_add (k := 6) (by clear * - h0; omega) (by omega), Fe5.or_add (k := 12) (by clear * - h1; omega) (by omega),
    Fe5.or_add (k := 18) (by clear * - h2; omega) (by omega), Fe5.or_add (k := 24) (by clear * - h3; omega) (by omega),
    Fe5.or_add (k := 4) (by clear * - h4; omega) (by omega), Fe5.or_add (k := 10) (by clear * - h5; omega) (by omega),
    Fe5.or_add (k := 16) (by clear * - h6; omega) (by omega)]
  have s4 : a4 = a4 % 2 ^ 2 + a4 / 2 ^ 2 % 2 ^ 26 * 2 ^ 2 + a4 / 2 ^ 28 * 2 ^ 28 := by clear * - h4; omega
  refine ⟨?_, ⟨?_, ?_, ?_, ?_, ?_, ?_, ?_, ?_, ?_⟩, ?_⟩
  · unfold FeStorage8.nat nat
    simp only
    have s0 : a0 = a0 % 2 ^ 26 + a0 / 2 ^ 26 * 2 ^ 26 := by clear * -; omega
    have s1 : a1 = a1 % 2 ^ 20 + a1 / 2 ^ 20 * 2 ^ 20 := by clear * -; omega
    have s2 : a2 = a2 % 2 ^ 14 + a2 / 2 ^ 14 * 2 ^ 14 := by clear * -; omega
    have s3 : a3 = a3 % 2 ^ 8 + a3 / 2 ^ 8 * 2 ^ 8 := by clear * -; omega
    have s5 : a5 = a5 % 2 ^ 22 + a5 / 2 ^ 22 * 2 ^ 22 := by clear * -; omega
    have s6 : a6 = a6 % 2 ^ 16 + a6 / 2 ^ 16 * 2 ^ 16 := by clear * -; omega
    have s7 : a7 = a7 % 2 ^ 10 + a7 / 2 ^ 10 * 2 ^ 10 := by clear * -; omega
    conv_rhs => rw [s0, s1, s2, s3, s4, s5, s6, s7]
    ring
  · try simp only
    clear * - h0; omega
  · try simp only
    clear * - h0 h1; omega
  · try simp only
    clear * - h1 h2; omega
  · try simp only
    clear * - h2 h3; omega
  · try simp only
    clear * - h3 h4; omega
  · try simp only
    clear * - h4; omega
  · try simp only
    clear * - h4 h5; omega
  · try simp only
    clear * - h5 h6; omega
  · try simp only
    clear * - h6 h7; omega
  · try simp only
    clear * - h7; omega

theorem getB32_length (a : Fe10) : a.getB32.length = 32 := rfl

theorem getB32_spec {a : Fe10} (ha : a.Norm) : a.getB32.map UInt8.ofNat = beBytes 32 a.nat := by
  have h9 := ha.n9
  obtain ⟨h0, h1, h2, h3, h4, h5, h6, h7, h8, _⟩ := ha
  obtain ⟨a0, a1, a2, a3, a4, a5, a6, a7, a8, a9⟩ := a
  simp only at h0 h1 h2 h3 h4 h5 h6 h7 h8 h9
  symm
  rw [← beBytes_beNat' (b := List.map UInt8.ofNat _) (k := 32) rfl]
  congr 1
  symm
  have o (x y k : ℕ) (hy : y < 2 ^ k) : (x <<< k) ||| y = y + x * 2 ^ k := by rw [Nat.or_comm]; exact or_shl hy
  have v (x k : ℕ) : x % 2 ^ k < 2 ^ k := Nat.mod_lt _ (by positivity)
  unfold getB32
  simp only [land_f, land_ff, land_3, land_3f, Nat.shiftRight_eq_div_pow]
  simp only [o _ _ 2 (v _ 2), o _ _ 4 (v _ 4), o _ _ 6 (v _ 6)]
  simp only [List.map_cons, List.map_nil, beNat_cons, beNat_nil, List.length_cons, List.length_nil]
  have hb (x : ℕ) : (UInt8.ofNat (x % 2 ^ 8)).toNat = x % 2 ^ 8 := by
    rw [UInt8.toNat_ofNat']
    exact Nat.mod_mod _ _
  have hb4 (x y : ℕ) : (UInt8.ofNat (x % 2 ^ 4 + y % 2 ^ 4 * 2 ^ 4)).toNat = x % 2 ^ 4 + y % 2 ^ 4 * 2 ^ 4 := by
    rw [UInt8.toNat_ofNat']
    exact Nat.mod_eq_of_lt (by omega)
  have hb2 (x y : ℕ) : (UInt8.ofNat (x % 2 ^ 2 + y % 2 ^ 6 * 2 ^ 2)).toNat = x % 2 ^ 2 + y % 2 ^ 6 * 2 ^ 2 := by
    rw [UInt8.toNat_ofNat']
    exact Nat.mod_eq_of_lt (by omega)
  have hb6 (x y : ℕ) : (UInt8.ofNat (x % 2 ^ 6 + y % 2 ^ 2 * 2 ^ 6)).toNat = x % 2 ^ 6 + y % 2 ^ 2 * 2 ^ 6 := by
    rw [UInt8.toNat_ofNat']
    exact Nat.mod_eq_of_lt (by omega)
  simp only [hb, hb2, hb4, hb6]
  unfold nat
  simp only
  have s0 : a0 = a0 % 2 ^ 8 + a0 / 2 ^ 8 % 2 ^ 8 * 2 ^ 8 + a0 / 2 ^ 16 % 2 ^ 8 * 2 ^ 16 + a0 / 2 ^ 24 % 2 ^ 2 * 2 ^ 24 := by clear * - h0; omega
  have s1 : a1 = a1 % 2 ^ 6 + a1 / 2 ^ 6 % 2 ^ 8 * 2 ^ 6 + a1 / 2 ^ 14 % 2 ^ 8 * 2 ^ 14 + a1 / 2 ^ 22 % 2 ^ 4 * 2 ^ 22 := by clear * - h1; omega
  have s2 : a2 = a2 % 2 ^ 4 + a2 / 2 ^ 4 % 2 ^ 8 * 2 ^ 4 + a2 / 2 ^ 12 % 2 ^ 8 * 2 ^ 12 + a2 / 2 ^ 20 % 2 ^ 6 * 2 ^ 20 := by clear * - h2; omega
  have s3 : a3 = a3 % 2 ^ 2 + a3 / 2 ^ 2 % 2 ^ 8 * 2 ^ 2 + a3 / 2 ^ 10 % 2 ^ 8 * 2 ^ 10 + a3 / 2 ^ 18 % 2 ^ 8 * 2 ^ 18 := by clear * - h3; omega
  have s4 : a4 = a4 % 2 ^ 8 + a4 / 2 ^ 8 % 2 ^ 8 * 2 ^ 8 + a4 / 2 ^ 16 % 2 ^ 8 * 2 ^ 16 + a4 / 2 ^ 24 % 2 ^ 2 * 2 ^ 24 := by clear * - h4; omega
  have s5 : a5 = a5 % 2 ^ 6 + a5 / 2 ^ 6 % 2 ^ 8 * 2 ^ 6 + a5 / 2 ^ 14 % 2 ^ 8 * 2 ^ 14 + a5 / 2 ^ 22 % 2 ^ 4 * 2 ^ 22 := by clear * - h5; omega
  have s6 : a6 = a6 % 2 ^ 4 + a6 / 2 ^ 4 % 2 ^ 8 * 2 ^ 4 + a6 / 2 ^ 12 % 2 ^ 8 * 2 ^ 12 + a6 / 2 ^ 20 % 2 ^ 6 * 2 ^ 20 := by clear * - h6; omega
  have s7 : a7 = a7 % 2 ^ 2 + a7 / 2 ^ 2 % 2 ^ 8 * 2 ^ 2 + a7 / 2 ^ 10 % 2 ^ 8 * 2 ^ 10 + a7 / 2 ^ 18 % 2 ^ 8 * 2 ^ 18 := by clear * - h7; omega
  have s8 : a8 = a8 % 2 ^ 8 + a8 / 2 ^ 8 % 2 ^ 8 * 2 ^ 8 + a8 / 2 ^ 16 % 2 ^ 8 * 2 ^ 16 + a8 / 2 ^ 24 % 2 ^ 2 * 2 ^ 24 := by clear * - h8; omega
  have s9 : a9 = a9 % 2 ^ 6 + a9 / 2 ^ 6 % 2 ^ 8 * 2 ^ 6 + a9 / 2 ^ 14 % 2 ^ 8 * 2 ^ 14 := by clear * - h9; omega
  conv_rhs => rw [s0, s1, s2, s3, s4, s5, s6, s7, s8, s9]
  ring

end Model.Fe10
end Secp
