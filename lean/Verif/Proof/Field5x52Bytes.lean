import Verif.Proof.Field5x52Ops

/-!
# Helper lemmas: bytes, comparison and storage of field elements on limbs
-/

namespace Secp
open Model
open Spec (beNat beBytes)
namespace Model.Fe5

theorem or6 {b0 b1 b2 b3 b4 b5 : ℕ} (h0 : b0 < 2 ^ 8) (h1 : b1 < 2 ^ 8) (h2 : b2 < 2 ^ 8)
    (h3 : b3 < 2 ^ 8) (h4 : b4 < 2 ^ 8) :
    b0 ||| (b1 <<< 8) ||| (b2 <<< 16) ||| (b3 <<< 24) ||| (b4 <<< 32) ||| (b5 <<< 40) =
      b0 + b1 * 2 ^ 8 + b2 * 2 ^ 16 + b3 * 2 ^ 24 + b4 * 2 ^ 32 + b5 * 2 ^ 40 := by
  rw [or_shl (x := b0) (by omega), or_shl (x := b0 + _) (by omega),
    or_shl (x := b0 + _ + _) (by omega), or_shl (x := b0 + _ + _ + _) (by omega),
    or_shl (x := b0 + _ + _ + _ + _) (by omega)]

theorem or6' {b0 b1 b2 b3 b4 b5 b6 : ℕ} (h0 : b0 < 2 ^ 4) (h1 : b1 < 2 ^ 8) (h2 : b2 < 2 ^ 8)
    (h3 : b3 < 2 ^ 8) (h4 : b4 < 2 ^ 8) (h5 : b5 < 2 ^ 8) :
    b0 ||| (b1 <<< 4) ||| (b2 <<< 12) ||| (b3 <<< 20) ||| (b4 <<< 28) ||| (b5 <<< 36) |||
        (b6 <<< 44) =
      b0 + b1 * 2 ^ 4 + b2 * 2 ^ 12 + b3 * 2 ^ 20 + b4 * 2 ^ 28 + b5 * 2 ^ 36 + b6 * 2 ^ 44 := by
  rw [or_shl (x := b0) (by omega), or_shl (x := b0 + _) (by omega),
    or_shl (x := b0 + _ + _) (by omega), or_shl (x := b0 + _ + _ + _) (by omega),
    or_shl (x := b0 + _ + _ + _ + _) (by omega), or_shl (x := b0 + _ + _ + _ + _ + _) (by omega)]

/-- The limbs set from 32 bytes. -/
theorem setB32Mod_spec (a : ℕ → ℕ) (ha : ∀ i, a i < 2 ^ 8) :
    let r := setB32Mod a
    r.n0 < 2 ^ 52 ∧ r.n1 < 2 ^ 52 ∧ r.n2 < 2 ^ 52 ∧ r.n3 < 2 ^ 52 ∧ r.n4 < 2 ^ 48 ∧
      r.nat = a 31 + a 30 * 2 ^ 8 + a 29 * 2 ^ 16 + a 28 * 2 ^ 24 + a 27 * 2 ^ 32 + a 26 * 2 ^ 40 +
        a 25 * 2 ^ 48 + a 24 * 2 ^ 56 + a 23 * 2 ^ 64 + a 22 * 2 ^ 72 + a 21 * 2 ^ 80 + a 20 * 2 ^ 88 +
        a 19 * 2 ^ 96 + a 18 * 2 ^ 104 + a 17 * 2 ^ 112 + a 16 * 2 ^ 120 + a 15 * 2 ^ 128 +
        a 14 * 2 ^ 136 + a 13 * 2 ^ 144 + a 12 * 2 ^ 152 + a 11 * 2 ^ 160 + a 10 * 2 ^ 168 +
        a 9 * 2 ^ 176 + a 8 * 2 ^ 184 + a 7 * 2 ^ 192 + a 6 * 2 ^ 200 + a 5 * 2 ^ 208 + a 4 * 2 ^ 216 +
        a 3 * 2 ^ 224 + a 2 * 2 ^ 232 + a 1 * 2 ^ 240 + a 0 * 2 ^ 248 := by
  have h0 := ha 0
  have h1 := ha 1
  have h2 := ha 2
  have h3 := ha 3
  have h4 := ha 4
  have h5 := ha 5
  have h6 := ha 6
  have h7 := ha 7
  have h8 := ha 8
  have h9 := ha 9
  have h10 := ha 10
  have h11 := ha 11
  have h12 := ha 12
  have h13 := ha 13
  have h14 := ha 14
  have h15 := ha 15
  have h16 := ha 16
  have h17 := ha 17
  have h18 := ha 18
  have h19 := ha 19
  have h20 := ha 20
  have h21 := ha 21
  have h22 := ha 22
  have h23 := ha 23
  have h24 := ha 24
  have h25 := ha 25
  have h26 := ha 26
  have h27 := ha 27
  have h28 := ha 28
  have h29 := ha 29
  have h30 := ha 30
  have h31 := ha 31
  unfold setB32Mod
  simp only [land_f, Nat.shiftRight_eq_div_pow]
  have e25 : a 25 / 2 ^ 4 % 2 ^ 4 = a 25 / 2 ^ 4 := Nat.mod_eq_of_lt (by omega)
  have e12 : a 12 / 2 ^ 4 % 2 ^ 4 = a 12 / 2 ^ 4 := Nat.mod_eq_of_lt (by omega)
  rw [e25, e12, or6 h31 h30 h29 h28 h27, or_shl (by omega),
    or6' (by omega) h24 h23 h22 h21 h20, or6 h18 h17 h16 h15 h14, or_shl (by omega),
    or6' (by omega) h11 h10 h9 h8 h7, or6 h5 h4 h3 h2 h1]
  refine ⟨by omega, by omega, by omega, by omega, by omega, ?_⟩
  unfold nat
  simp only
  omega

theorem Norm.ext_nat {a b : Fe5} (ha : a.Norm) (hb : b.Norm) (h : a.nat = b.nat) : a = b := by
  have a4 := ha.n4
  have b4 := hb.n4
  obtain ⟨h0, h1, h2, h3, _⟩ := ha
  obtain ⟨g0, g1, g2, g3, _⟩ := hb
  unfold nat at h
  ext <;> omega

theorem isZero_spec (a : Fe5) : a.isZero = decide (a.nat = 0) := by
  unfold isZero
  apply decide_eq_decide.2
  simp only [Nat.or_eq_zero_iff]
  unfold nat
  omega

theorem isOdd_spec (a : Fe5) : a.isOdd = decide (a.nat % 2 = 1) := by
  unfold isOdd
  apply decide_eq_decide.2
  rw [land_one']
  unfold nat
  omega

theorem setB32LimitRet_spec {a : Fe5} (h0 : a.n0 < 2 ^ 52) (h1 : a.n1 < 2 ^ 52) (h2 : a.n2 < 2 ^ 52)
    (h3 : a.n3 < 2 ^ 52) (h4 : a.n4 < 2 ^ 48) : a.setB32LimitRet = decide (a.nat < p) := by
  have hand : (a.n3 &&& a.n2 &&& a.n1 = m52) ↔
      (a.n3 = 2 ^ 52 - 1 ∧ a.n2 = 2 ^ 52 - 1) ∧ a.n1 = 2 ^ 52 - 1 := by
    rw [show m52 = 2 ^ 52 - 1 from rfl,
      land_eq_ones (lt_of_le_of_lt Nat.and_le_left h3) h1, land_eq_ones h3 h2]
  unfold setB32LimitRet
  rw [← Bool.decide_and, ← Bool.decide_and, ← decide_not]
  apply decide_eq_decide.2
  rw [hand]
  unfold nat p feP0 m48
  omega

/-- Three-way comparison of natural numbers. -/
def cmpNat (x y : ℕ) : ℤ := if x > y then 1 else if x < y then -1 else 0

theorem cmp_step {h l h' l' B : ℕ} {t : ℤ} (hl : l < B) (hl' : l' < B) (ht : t = cmpNat l l') :
    (if h > h' then 1 else if h < h' then -1 else t) = cmpNat (l + h * B) (l' + h' * B) := by
  unfold cmpNat at *
  rcases lt_trichotomy h h' with c | c | c
  · have : (h + 1) * B ≤ h' * B := Nat.mul_le_mul_right _ c
    rw [Nat.succ_mul] at this
    rw [if_neg (by omega), if_pos c, if_neg (by omega), if_pos (by omega)]
  · subst c
    rw [if_neg (by omega), if_neg (by omega), ht]
    simp only [gt_iff_lt, Nat.add_lt_add_iff_right]
  · have : (h' + 1) * B ≤ h * B := Nat.mul_le_mul_right _ c
    rw [Nat.succ_mul] at this
    rw [if_pos c, if_pos (by omega)]

theorem cmpVar_spec {a b : Fe5} (ha : a.Norm) (hb : b.Norm) :
    cmpVar a b = if a.nat > b.nat then 1 else if a.nat < b.nat then -1 else 0 := by
  obtain ⟨h0, h1, h2, h3, _⟩ := ha
  obtain ⟨g0, g1, g2, g3, _⟩ := hb
  obtain ⟨a0, a1, a2, a3, a4⟩ := a
  obtain ⟨b0, b1, b2, b3, b4⟩ := b
  simp only at h0 h1 h2 h3 g0 g1 g2 g3
  have e0 : (if a0 > b0 then 1 else if a0 < b0 then -1 else (0 : ℤ)) = cmpNat a0 b0 := rfl
  have e1 := cmp_step (h := a1) (h' := b1) h0 g0 e0
  have e2 := cmp_step (h := a2) (h' := b2) (B := 2 ^ 104) (by omega) (by omega) e1
  have e3 := cmp_step (h := a3) (h' := b3) (B := 2 ^ 156) (by omega) (by omega) e2
  have e4 := cmp_step (h := a4) (h' := b4) (B := 2 ^ 208) (by omega) (by omega) e3
  exact e4

theorem or_add {x y k : ℕ} (hx : x < 2 ^ k) (hy : 2 ^ k ∣ y) : x ||| y = x + y := by
  obtain ⟨z, rfl⟩ := hy
  rw [Nat.mul_comm, ← Nat.shiftLeft_eq, or_shl hx, Nat.shiftLeft_eq]

/-- A storage value as an integer. -/
def _root_.Secp.Model.FeStorage.nat (a : FeStorage) : ℕ :=
  a.n0 + a.n1 * 2 ^ 64 + a.n2 * 2 ^ 128 + a.n3 * 2 ^ 192

theorem toStorage_spec {a : Fe5} (ha : a.Norm) :
    a.toStorage.nat = a.nat ∧ a.toStorage.n0 < 2 ^ 64 ∧ a.toStorage.n1 < 2 ^ 64 ∧
      a.toStorage.n2 < 2 ^ 64 ∧ a.toStorage.n3 < 2 ^ 64 := by
  have h4 := ha.n4
  obtain ⟨h0, h1, h2, h3, _⟩ := ha
  obtain ⟨a0, a1, a2, a3, a4⟩ := a
  simp only at h0 h1 h2 h3 h4
  unfold toStorage
  simp only [u64, Nat.shiftRight_eq_div_pow, Nat.shiftLeft_eq]
  rw [or_add (k := 52) h0 (by omega), or_add (k := 40) (by omega) (by omega),
    or_add (k := 28) (by omega) (by omega), or_add (k := 16) (by omega) (by omega)]
  refine ⟨?_, by omega, by omega, by omega, by omega⟩
  unfold FeStorage.nat nat
  simp only
  omega

theorem fromStorage_spec {a : FeStorage} (h0 : a.n0 < 2 ^ 64) (h1 : a.n1 < 2 ^ 64)
    (h2 : a.n2 < 2 ^ 64) (h3 : a.n3 < 2 ^ 64) :
    (fromStorage a).nat = a.nat ∧ (fromStorage a).n0 < 2 ^ 52 ∧ (fromStorage a).n1 < 2 ^ 52 ∧
      (fromStorage a).n2 < 2 ^ 52 ∧ (fromStorage a).n3 < 2 ^ 52 ∧ (fromStorage a).n4 < 2 ^ 48 := by
  obtain ⟨a0, a1, a2, a3⟩ := a
  simp only at h0 h1 h2 h3
  unfold fromStorage
  simp only [u64, land_m52, Nat.shiftRight_eq_div_pow, Nat.shiftLeft_eq]
  rw [or_add (k := 12) (by omega) (by omega), or_add (k := 24) (by omega) (by omega),
    or_add (k := 36) (by omega) (by omega)]
  refine ⟨?_, by omega, by omega, by omega, by omega,
    by omega⟩
  unfold FeStorage.nat nat
  simp only
  omega

theorem bytes_combine {a0 a1 a2 a3 a4 lo1 hi0 lo3 hi2 : ℕ} {c0 c1 c2 c3 c4 c5 c6 c7 c8 c9 c10 c11 c12 c13 c14 c15 c16 c17 c18 c19 c20 c21 c22 c23 c24 c25 c26 c27 c28 c29 c30 c31 : ℕ}
    (e4 : a4 = c5 + c4 * 2 ^ 8 + c3 * 2 ^ 16 + c2 * 2 ^ 24 + c1 * 2 ^ 32 + c0 * 2 ^ 40)
    (e3 : a3 = lo3 + c11 * 2 ^ 4 + c10 * 2 ^ 12 + c9 * 2 ^ 20 + c8 * 2 ^ 28 + c7 * 2 ^ 36 + c6 * 2 ^ 44)
    (e2 : a2 = c18 + c17 * 2 ^ 8 + c16 * 2 ^ 16 + c15 * 2 ^ 24 + c14 * 2 ^ 32 + c13 * 2 ^ 40 +
      hi2 * 2 ^ 48)
    (e1 : a1 = lo1 + c24 * 2 ^ 4 + c23 * 2 ^ 12 + c22 * 2 ^ 20 + c21 * 2 ^ 28 + c20 * 2 ^ 36 +
      c19 * 2 ^ 44)
    (e0 : a0 = c31 + c30 * 2 ^ 8 + c29 * 2 ^ 16 + c28 * 2 ^ 24 + c27 * 2 ^ 32 + c26 * 2 ^ 40 +
      hi0 * 2 ^ 48)
    (f1 : c12 = hi2 + lo3 * 2 ^ 4) (f0 : c25 = hi0 + lo1 * 2 ^ 4) :
    (c0 * 256 ^ 31 + (c1 * 256 ^ 30 + (c2 * 256 ^ 29 + (c3 * 256 ^ 28 + (c4 * 256 ^ 27 + (c5 * 256 ^ 26 + (c6 * 256 ^ 25 + (c7 * 256 ^ 24 + (c8 * 256 ^ 23 + (c9 * 256 ^ 22 + (c10 * 256 ^ 21 + (c11 * 256 ^ 20 + (c12 * 256 ^ 19 + (c13 * 256 ^ 18 + (c14 * 256 ^ 17 + (c15 * 256 ^ 16 + (c16 * 256 ^ 15 + (c17 * 256 ^ 14 + (c18 * 256 ^ 13 + (c19 * 256 ^ 12 + (c20 * 256 ^ 11 + (c21 * 256 ^ 10 + (c22 * 256 ^ 9 + (c23 * 256 ^ 8 + (c24 * 256 ^ 7 + (c25 * 256 ^ 6 + (c26 * 256 ^ 5 + (c27 * 256 ^ 4 + (c28 * 256 ^ 3 + (c29 * 256 ^ 2 + (c30 * 256 ^ 1 + (c31 * 256 ^ 0 + 0)))))))))))))))))))))))))))))))) = a0 + a1 * 2 ^ 52 + a2 * 2 ^ 104 + a3 * 2 ^ 156 + a4 * 2 ^ 208 := by
  subst e4 e3 e2 e1 e0 f1 f0
  ring

theorem getB32_length (a : Fe5) : a.getB32.length = 32 := rfl

theorem getB32_spec {a : Fe5} (ha : a.Norm) : a.getB32.map UInt8.ofNat = beBytes 32 a.nat := by
  have h4 := ha.n4
  obtain ⟨h0, h1, h2, h3, _⟩ := ha
  obtain ⟨a0, a1, a2, a3, a4⟩ := a
  simp only at h0 h1 h2 h3 h4
  symm
  rw [← beBytes_beNat' (b := List.map UInt8.ofNat _) (k := 32) rfl]
  congr 1
  symm
  unfold getB32
  simp only [land_f, land_ff, Nat.shiftRight_eq_div_pow]
  rw [or_shl (by omega), or_shl (by omega)]
  simp only [List.map_cons, List.map_nil, beNat_cons, beNat_nil, List.length_cons, List.length_nil]
  have hb : ∀ x, (UInt8.ofNat (x % 2 ^ 8)).toNat = x % 2 ^ 8 := by
    intro x
    rw [UInt8.toNat_ofNat']
    exact Nat.mod_mod _ _
  have hb' : ∀ x y, (UInt8.ofNat (x % 2 ^ 4 + y % 2 ^ 4 * 2 ^ 4)).toNat =
      x % 2 ^ 4 + y % 2 ^ 4 * 2 ^ 4 := by
    intro x y
    rw [UInt8.toNat_ofNat']
    exact Nat.mod_eq_of_lt (by omega)
  simp only [hb, hb']
  unfold nat
  simp only
  exact bytes_combine (by omega) (by omega) (by omega) (by omega) (by omega) rfl rfl

end Model.Fe5
end Secp
