import Verif.Proof.Field5x52Mul
import Verif.Model.Group
import Verif.Proof.Bytes

/-!
# Helper lemmas: the remaining operations on the limbs of field elements
-/

namespace Secp
open Model
open Spec (beNat beBytes)
namespace Model.Fe5

theorem sub64_eq {a b : ℕ} (h : b ≤ a) (ha : a < 2 ^ 64) : sub64 a b = a - b := by
  unfold sub64
  omega

theorem negate_spec {a : Fe5} {m : ℕ} (hm : m ≤ 31) (h : a.Mag m) :
    (a.negate m).Mag (m + 1) ∧ (a.negate m).nat + a.nat = 2 * (m + 1) * p := by
  obtain ⟨h0, h1, h2, h3, h4⟩ := h
  obtain ⟨a0, a1, a2, a3, a4⟩ := a
  simp only at h0 h1 h2 h3 h4
  unfold negate feP0 m52 m48
  simp only
  have e1 : u64 (4503595332402223 * 2 * (m + 1)) = 4503595332402223 * 2 * (m + 1) :=
    Nat.mod_eq_of_lt (by omega)
  have e2 : u64 (4503599627370495 * 2 * (m + 1)) = 4503599627370495 * 2 * (m + 1) :=
    Nat.mod_eq_of_lt (by omega)
  have e3 : u64 (281474976710655 * 2 * (m + 1)) = 281474976710655 * 2 * (m + 1) :=
    Nat.mod_eq_of_lt (by omega)
  rw [e1, e2, e3, sub64_eq (by omega) (by omega), sub64_eq (by omega) (by omega),
    sub64_eq (by omega) (by omega), sub64_eq (by omega) (by omega), sub64_eq (by omega) (by omega)]
  refine ⟨⟨by simp only; omega, by simp only; omega, by simp only; omega, by simp only; omega,
    by simp only; omega⟩, ?_⟩
  unfold nat p
  simp only
  omega

theorem add_spec {a b : Fe5} {m k : ℕ} (hm : m + k ≤ 32) (ha : a.Mag m) (hb : b.Mag k) :
    (add a b).Mag (m + k) ∧ (add a b).nat = a.nat + b.nat := by
  obtain ⟨h0, h1, h2, h3, h4⟩ := ha
  obtain ⟨g0, g1, g2, g3, g4⟩ := hb
  obtain ⟨a0, a1, a2, a3, a4⟩ := a
  obtain ⟨b0, b1, b2, b3, b4⟩ := b
  simp only at h0 h1 h2 h3 h4 g0 g1 g2 g3 g4
  have e0 : u64 (a0 + b0) = a0 + b0 := Nat.mod_eq_of_lt (by omega)
  have e1 : u64 (a1 + b1) = a1 + b1 := Nat.mod_eq_of_lt (by omega)
  have e2 : u64 (a2 + b2) = a2 + b2 := Nat.mod_eq_of_lt (by omega)
  have e3 : u64 (a3 + b3) = a3 + b3 := Nat.mod_eq_of_lt (by omega)
  have e4 : u64 (a4 + b4) = a4 + b4 := Nat.mod_eq_of_lt (by omega)
  unfold add
  simp only [e0, e1, e2, e3, e4]
  refine ⟨⟨by simp only; omega, by simp only; omega, by simp only; omega, by simp only; omega,
    by simp only; omega⟩, ?_⟩
  unfold nat
  simp only
  ring

theorem mulInt_spec {a : Fe5} {m k : ℕ} (hm : m * k ≤ 32) (ha : a.Mag m) :
    (mulInt a k).Mag (m * k) ∧ (mulInt a k).nat = a.nat * k := by
  obtain ⟨h0, h1, h2, h3, h4⟩ := ha
  obtain ⟨a0, a1, a2, a3, a4⟩ := a
  simp only at h0 h1 h2 h3 h4
  have hb : ∀ {x y : ℕ}, x ≤ 2 * m * y → x * k ≤ 2 * (m * k) * y := by
    intro x y h
    calc x * k ≤ 2 * m * y * k := Nat.mul_le_mul_right _ h
      _ = _ := by ring
  replace h0 := hb h0
  replace h1 := hb h1
  replace h2 := hb h2
  replace h3 := hb h3
  replace h4 := hb h4
  have e0 : u64 (a0 * k) = a0 * k := Nat.mod_eq_of_lt (by omega)
  have e1 : u64 (a1 * k) = a1 * k := Nat.mod_eq_of_lt (by omega)
  have e2 : u64 (a2 * k) = a2 * k := Nat.mod_eq_of_lt (by omega)
  have e3 : u64 (a3 * k) = a3 * k := Nat.mod_eq_of_lt (by omega)
  have e4 : u64 (a4 * k) = a4 * k := Nat.mod_eq_of_lt (by omega)
  unfold mulInt
  simp only [e0, e1, e2, e3, e4]
  refine ⟨⟨h0, h1, h2, h3, h4⟩, ?_⟩
  unfold nat
  simp only
  ring

theorem addInt_spec {a : Fe5} {m k : ℕ} (hm : m ≤ 31) (hk : k ≤ 0x7FFF) (ha : a.Mag m) :
    (addInt a k).Mag (m + 1) ∧ (addInt a k).nat = a.nat + k := by
  obtain ⟨h0, h1, h2, h3, h4⟩ := ha
  obtain ⟨a0, a1, a2, a3, a4⟩ := a
  simp only at h0 h1 h2 h3 h4
  have e0 : u64 (a0 + k) = a0 + k := Nat.mod_eq_of_lt (by omega)
  unfold addInt
  simp only [e0]
  have g : ∀ {x y : ℕ}, x ≤ 2 * m * y → x ≤ 2 * (m + 1) * y := fun h => h.trans (by gcongr; omega)
  refine ⟨⟨by simp only; omega, g h1, g h2, g h3, g h4⟩, ?_⟩
  unfold nat
  simp only
  ring

theorem setInt_spec {k : ℕ} (hk : k ≤ 0x7FFF) : (setInt k).Norm ∧ (setInt k).nat = k := by
  have e0 : u64 k = k := Nat.mod_eq_of_lt (by omega)
  unfold setInt
  rw [e0]
  refine ⟨⟨by simp only; omega, by simp, by simp, by simp, ?_⟩, ?_⟩
  · unfold nat p
    simp only
    omega
  · unfold nat
    simp

theorem cmovLimb_zero {r a : ℕ} (hr : r < 2 ^ 64) : cmovLimb r a 0 = r := by
  unfold cmovLimb
  have e : u64 (0 + (2 ^ 64 - 1)) = 2 ^ 64 - 1 := by decide
  simp only [e]
  rw [Nat.xor_self, Nat.and_zero, Nat.or_zero, Nat.and_two_pow_sub_one_eq_mod, Nat.mod_eq_of_lt hr]

theorem cmovLimb_one {r a : ℕ} (ha : a < 2 ^ 64) : cmovLimb r a 1 = a := by
  unfold cmovLimb
  have e : u64 (1 + (2 ^ 64 - 1)) = 0 := by decide
  simp only [e]
  rw [Nat.xor_zero, Nat.and_zero, Nat.zero_or, Nat.and_two_pow_sub_one_eq_mod, Nat.mod_eq_of_lt ha]

theorem Mag.lt64 {a : Fe5} (h : a.Mag 32) :
    a.n0 < 2 ^ 64 ∧ a.n1 < 2 ^ 64 ∧ a.n2 < 2 ^ 64 ∧ a.n3 < 2 ^ 64 ∧ a.n4 < 2 ^ 64 := by
  obtain ⟨h0, h1, h2, h3, h4⟩ := h
  omega

theorem cmov_spec {r a : Fe5} (hr : r.Mag 32) (ha : a.Mag 32) (flag : Bool) :
    cmov r a (if flag then 1 else 0) = if flag then a else r := by
  obtain ⟨r0, r1, r2, r3, r4⟩ := hr.lt64
  obtain ⟨a0, a1, a2, a3, a4⟩ := ha.lt64
  cases flag
  · simp only [Bool.false_eq_true, if_false]
    unfold cmov
    rw [cmovLimb_zero r0, cmovLimb_zero r1, cmovLimb_zero r2, cmovLimb_zero r3, cmovLimb_zero r4]
  · simp only [if_true]
    unfold cmov
    rw [cmovLimb_one a0, cmovLimb_one a1, cmovLimb_one a2, cmovLimb_one a3, cmovLimb_one a4]

theorem half_spec {a : Fe5} {m : ℕ} (hm : m ≤ 31) (h : a.Mag m) :
    a.half.Mag (m / 2 + 1) ∧ ∃ x, x ≤ 1 ∧ 2 * a.half.nat = a.nat + x * p := by
  obtain ⟨h0, h1, h2, h3, h4⟩ := h
  obtain ⟨a0, a1, a2, a3, a4⟩ := a
  simp only at h0 h1 h2 h3 h4
  have hmask : ∃ x, x = a0 % 2 ∧ sub64 0 (a0 &&& 1) >>> 12 = x * (2 ^ 52 - 1) ∧
      feP0 &&& (x * (2 ^ 52 - 1)) = x * feP0 ∧ (x * (2 ^ 52 - 1)) >>> 4 = x * (2 ^ 48 - 1) := by
    rw [land_one']
    refine ⟨a0 % 2, rfl, ?_, ?_, ?_⟩ <;>
      rcases Nat.mod_two_eq_zero_or_one a0 with e | e <;> rw [e] <;> decide
  obtain ⟨x, hx, e1, e2, e3⟩ := hmask
  unfold half
  simp only [e1, e2, e3]
  simp only [land_one', Nat.shiftRight_eq_div_pow, Nat.shiftLeft_eq]
  unfold feP0
  have hx1 : x ≤ 1 := by omega
  have f0 : u64 (a0 + x * 4503595332402223) = a0 + x * 4503595332402223 := Nat.mod_eq_of_lt (by omega)
  have f1 : u64 (a1 + x * (2 ^ 52 - 1)) = a1 + x * (2 ^ 52 - 1) := Nat.mod_eq_of_lt (by omega)
  have f2 : u64 (a2 + x * (2 ^ 52 - 1)) = a2 + x * (2 ^ 52 - 1) := Nat.mod_eq_of_lt (by omega)
  have f3 : u64 (a3 + x * (2 ^ 52 - 1)) = a3 + x * (2 ^ 52 - 1) := Nat.mod_eq_of_lt (by omega)
  have f4 : u64 (a4 + x * (2 ^ 48 - 1)) = a4 + x * (2 ^ 48 - 1) := Nat.mod_eq_of_lt (by omega)
  rw [f0, f1, f2, f3, f4]
  have g0 : (a0 + x * 4503595332402223) % 2 = 0 := by omega
  have b0 : a0 + x * 4503595332402223 ≤ (2 * m + 1) * (2 ^ 52 - 1) := by omega
  have b1 : a1 + x * (2 ^ 52 - 1) ≤ (2 * m + 1) * (2 ^ 52 - 1) := by omega
  have b2 : a2 + x * (2 ^ 52 - 1) ≤ (2 * m + 1) * (2 ^ 52 - 1) := by omega
  have b3 : a3 + x * (2 ^ 52 - 1) ≤ (2 * m + 1) * (2 ^ 52 - 1) := by omega
  have b4 : a4 + x * (2 ^ 48 - 1) ≤ (2 * m + 1) * (2 ^ 48 - 1) := by omega
  have key : a0 + a1 * 2 ^ 52 + a2 * 2 ^ 104 + a3 * 2 ^ 156 + a4 * 2 ^ 208 + x * p =
      (a0 + x * 4503595332402223) + (a1 + x * (2 ^ 52 - 1)) * 2 ^ 52 +
      (a2 + x * (2 ^ 52 - 1)) * 2 ^ 104 + (a3 + x * (2 ^ 52 - 1)) * 2 ^ 156 +
      (a4 + x * (2 ^ 48 - 1)) * 2 ^ 208 := by
    unfold p
    omega
  generalize hp : x * p = xp at key
  obtain ⟨t0, h0'⟩ : ∃ t, t = a0 + x * 4503595332402223 := ⟨_, rfl⟩
  obtain ⟨t1, h1'⟩ : ∃ t, t = a1 + x * (2 ^ 52 - 1) := ⟨_, rfl⟩
  obtain ⟨t2, h2'⟩ : ∃ t, t = a2 + x * (2 ^ 52 - 1) := ⟨_, rfl⟩
  obtain ⟨t3, h3'⟩ : ∃ t, t = a3 + x * (2 ^ 52 - 1) := ⟨_, rfl⟩
  obtain ⟨t4, h4'⟩ : ∃ t, t = a4 + x * (2 ^ 48 - 1) := ⟨_, rfl⟩
  rw [← h0'] at g0 b0
  rw [← h1'] at b1
  rw [← h2'] at b2
  rw [← h3'] at b3
  rw [← h4'] at b4
  rw [← h0', ← h1', ← h2', ← h3', ← h4'] at key ⊢
  clear h0' h1' h2' h3' h4'
  clear f0 f1 f2 f3 f4 e1 e2 e3 h0 h1 h2 h3 h4 hx
  have f0 : u64 (t0 / 2 ^ 1 + t1 % 2 * 2 ^ 51) = t0 / 2 ^ 1 + t1 % 2 * 2 ^ 51 :=
    Nat.mod_eq_of_lt (by clear key; omega)
  have f1 : u64 (t1 / 2 ^ 1 + t2 % 2 * 2 ^ 51) = t1 / 2 ^ 1 + t2 % 2 * 2 ^ 51 :=
    Nat.mod_eq_of_lt (by clear key; omega)
  have f2 : u64 (t2 / 2 ^ 1 + t3 % 2 * 2 ^ 51) = t2 / 2 ^ 1 + t3 % 2 * 2 ^ 51 :=
    Nat.mod_eq_of_lt (by clear key; omega)
  have f3 : u64 (t3 / 2 ^ 1 + t4 % 2 * 2 ^ 51) = t3 / 2 ^ 1 + t4 % 2 * 2 ^ 51 :=
    Nat.mod_eq_of_lt (by clear key; omega)
  rw [f0, f1, f2, f3]
  refine ⟨⟨?_, ?_, ?_, ?_, ?_⟩, x, hx1, ?_⟩
  · simp only; clear key; omega
  · simp only; clear key; omega
  · simp only; clear key; omega
  · simp only; clear key; omega
  · simp only; clear key; omega
  · rw [hp]
    unfold nat
    simp only
    rw [key]
    clear key
    omega

end Model.Fe5
end Secp
