import Verif.Proof.Field5x52

/-!
# Helper lemmas: multiplication and squaring of field elements on limbs
-/

namespace Secp
open Model
namespace Model.Fe5

/-- The bounds the inner multiplication needs (field_5x52_int128_impl.h:24-33). -/
structure Bits (a : Fe5) : Prop where
  n0 : a.n0 < 2 ^ 56
  n1 : a.n1 < 2 ^ 56
  n2 : a.n2 < 2 ^ 56
  n3 : a.n3 < 2 ^ 56
  n4 : a.n4 < 2 ^ 52

theorem Mag.bits {a : Fe5} (h : a.Mag 8) : a.Bits := by
  obtain ⟨h0, h1, h2, h3, h4⟩ := h
  constructor <;> omega

theorem acc_eq {r a b : ℕ} (h : r + a * b < 2 ^ 128) : u128AccumMul r a b = r + a * b :=
  Nat.mod_eq_of_lt h

theorem mul_lt {a b x y : ℕ} (ha : a < x) (hb : b < y) : a * b ≤ (x - 1) * (y - 1) :=
  Nat.mul_le_mul (by omega) (by omega)

theorem split_m52 (d : ℕ) : ∃ q r, d = q * 2 ^ 52 + r ∧ r < 2 ^ 52 ∧ u128ToU64 d &&& m52 = r ∧
    u128Rshift d 52 = q := by
  refine ⟨d / 2 ^ 52, d % 2 ^ 52, ?_, Nat.mod_lt _ (by norm_num), ?_, ?_⟩
  · omega
  · rw [land_m52, u128ToU64, u64]; omega
  · rw [u128Rshift, Nat.shiftRight_eq_div_pow]

theorem split_64 (d : ℕ) : ∃ q r, d = q * 2 ^ 64 + r ∧ r < 2 ^ 64 ∧ u128ToU64 d = r ∧
    u128Rshift d 64 = q := by
  refine ⟨d / 2 ^ 64, d % 2 ^ 64, ?_, Nat.mod_lt _ (by norm_num), rfl, ?_⟩
  · omega
  · rw [u128Rshift, Nat.shiftRight_eq_div_pow]

/-- The sum of products that the inner multiplication distributes over the limbs, and the way it
carries: everything after the products is linear. -/
theorem mul_combine {p0 p1 p2 p3 p4 p5 p6 p7 p8 : ℕ} {q r : ℕ} (hq : p8 = q * 2 ^ 64 + r)
    {d1 t3 d2 t4 tx t4' d3 u0 c1 r0 d4 u1 c2 r1 d5 u2 c3 r2 c4 r3 : ℕ}
    (e1 : p3 + 0x1000003D10 * r = d1 * 2 ^ 52 + t3)
    (e2 : d1 + p4 + 0x1000003D10000 * q = d2 * 2 ^ 52 + t4) (e3 : t4 = tx * 2 ^ 48 + t4')
    (e4 : d2 + p5 = d3 * 2 ^ 52 + u0)
    (e5 : p0 + (u0 * 2 ^ 4 + tx) * 0x1000003D1 = c1 * 2 ^ 52 + r0)
    (e6 : d3 + p6 = d4 * 2 ^ 52 + u1)
    (e7 : c1 + p1 + u1 * 0x1000003D10 = c2 * 2 ^ 52 + r1)
    (e8 : d4 + p7 = d5 * 2 ^ 64 + u2)
    (e9 : c2 + p2 + 0x1000003D10 * u2 = c3 * 2 ^ 52 + r2)
    (e10 : c3 + 0x1000003D10000 * d5 + t3 = c4 * 2 ^ 52 + r3) :
    (((r0 + r1 * 2 ^ 52 + r2 * 2 ^ 104 + r3 * 2 ^ 156 + (c4 + t4') * 2 ^ 208 : ℕ)) : Fp) =
      ((p0 + p1 * 2 ^ 52 + p2 * 2 ^ 104 + p3 * 2 ^ 156 + p4 * 2 ^ 208 + p5 * 2 ^ 260 +
        p6 * 2 ^ 312 + p7 * 2 ^ 364 + p8 * 2 ^ 416 : ℕ) : Fp) := by
  have key : p0 + p1 * 2 ^ 52 + p2 * 2 ^ 104 + p3 * 2 ^ 156 + p4 * 2 ^ 208 + p5 * 2 ^ 260 +
        p6 * 2 ^ 312 + p7 * 2 ^ 364 + p8 * 2 ^ 416 =
      r0 + r1 * 2 ^ 52 + r2 * 2 ^ 104 + r3 * 2 ^ 156 + (c4 + t4') * 2 ^ 208 +
      (u0 * 2 ^ 4 + tx + u1 * 2 ^ 56 + u2 * 2 ^ 108 + d5 * 2 ^ 172 + r * 2 ^ 160 + q * 2 ^ 224) *
      115792089237316195423570985008687907853269984665640564039457584007908834671663 := by
    omega
  have hp : p = 115792089237316195423570985008687907853269984665640564039457584007908834671663 := by
    unfold p; rfl
  rw [key, ← hp, Nat.cast_add _ (_ * p), Nat.cast_mul _ p, ZMod.natCast_self, mul_zero, add_zero]

theorem mulR_shl : u64 (mulR <<< 12) = 0x1000003D10000 := by decide
theorem mulR_shr : mulR >>> 4 = 0x1000003D1 := by decide

theorem u0_eq {u tx : ℕ} (hu : u < 2 ^ 52) (ht : tx < 2 ^ 4) : u64 (u <<< 4) ||| tx = u * 2 ^ 4 + tx := by
  rw [u64, Nat.shiftLeft_eq, Nat.mod_eq_of_lt (by omega), ← Nat.shiftLeft_eq,
    Nat.shiftLeft_add_eq_or_of_lt ht]

set_option exponentiation.threshold 500 in
theorem mul_spec {a b : Fe5} (ha : a.Bits) (hb : b.Bits) :
    (mul a b).Mag 1 ∧ (((mul a b).nat : ℕ) : Fp) = ((a.nat : ℕ) : Fp) * ((b.nat : ℕ) : Fp) := by
  obtain ⟨a0, a1, a2, a3, a4⟩ := a
  obtain ⟨b0, b1, b2, b3, b4⟩ := b
  obtain ⟨ha0, ha1, ha2, ha3, ha4⟩ := ha
  obtain ⟨hb0, hb1, hb2, hb3, hb4⟩ := hb
  simp only at ha0 ha1 ha2 ha3 ha4 hb0 hb1 hb2 hb3 hb4
  have B00 := mul_lt ha0 hb0
  have B01 := mul_lt ha0 hb1
  have B02 := mul_lt ha0 hb2
  have B03 := mul_lt ha0 hb3
  have B04 := mul_lt ha0 hb4
  have B10 := mul_lt ha1 hb0
  have B11 := mul_lt ha1 hb1
  have B12 := mul_lt ha1 hb2
  have B13 := mul_lt ha1 hb3
  have B14 := mul_lt ha1 hb4
  have B20 := mul_lt ha2 hb0
  have B21 := mul_lt ha2 hb1
  have B22 := mul_lt ha2 hb2
  have B23 := mul_lt ha2 hb3
  have B24 := mul_lt ha2 hb4
  have B30 := mul_lt ha3 hb0
  have B31 := mul_lt ha3 hb1
  have B32 := mul_lt ha3 hb2
  have B33 := mul_lt ha3 hb3
  have B34 := mul_lt ha3 hb4
  have B40 := mul_lt ha4 hb0
  have B41 := mul_lt ha4 hb1
  have B42 := mul_lt ha4 hb2
  have B43 := mul_lt ha4 hb3
  have B44 := mul_lt ha4 hb4
  have hn : (a0 + a1 * 2 ^ 52 + a2 * 2 ^ 104 + a3 * 2 ^ 156 + a4 * 2 ^ 208) *
      (b0 + b1 * 2 ^ 52 + b2 * 2 ^ 104 + b3 * 2 ^ 156 + b4 * 2 ^ 208) =
      (a0 * b0) + (a0 * b1 + a1 * b0) * 2 ^ 52 + (a0 * b2 + a1 * b1 + a2 * b0) * 2 ^ 104 +
      (a0 * b3 + a1 * b2 + a2 * b1 + a3 * b0) * 2 ^ 156 +
      (a0 * b4 + a1 * b3 + a2 * b2 + a3 * b1 + a4 * b0) * 2 ^ 208 +
      (a1 * b4 + a2 * b3 + a3 * b2 + a4 * b1) * 2 ^ 260 + (a2 * b4 + a3 * b3 + a4 * b2) * 2 ^ 312 +
      (a3 * b4 + a4 * b3) * 2 ^ 364 + (a4 * b4) * 2 ^ 416 := by ring
  clear ha0 ha1 ha2 ha3 ha4 hb0 hb1 hb2 hb3 hb4
  obtain ⟨r, hr⟩ : ∃ r, mul ⟨a0, a1, a2, a3, a4⟩ ⟨b0, b1, b2, b3, b4⟩ = r := ⟨_, rfl⟩
  rw [hr, ← Nat.cast_mul]
  unfold nat
  simp only
  rw [hn]
  clear hn
  unfold mul at hr
  extract_lets d1 d2 d3 d4 c1 d5 c2 t3 d6 d7 d8 d9 d10 d11 d12 t4 d13 tx t4' c3 d14 d15 d16 d17 u0
    d18 u1 c4 r0 c5 c6 c7 d19 d20 d21 c8 d22 r1 c9 c10 c11 c12 d23 d24 c13 d25 r2 c14 c15 c16 r3
    c17 r4 at hr
  have hd1 : d1 = a0 * b3 := Nat.mod_eq_of_lt (show a0 * b3 < _ by omega)
  clear_value d1
  have hd2 : d2 = d1 + a1 * b2 := acc_eq (show d1 + a1 * b2 < _ by omega)
  clear_value d2
  have hd3 : d3 = d2 + a2 * b1 := acc_eq (show d2 + a2 * b1 < _ by omega)
  clear_value d3
  have hd4 : d4 = d3 + a3 * b0 := acc_eq (show d3 + a3 * b0 < _ by omega)
  clear_value d4
  have hc1 : c1 = a4 * b4 := Nat.mod_eq_of_lt (show a4 * b4 < _ by omega)
  clear_value c1
  obtain ⟨q_c1, c1l, e_c1, b_c1, k_c1, k'_c1⟩ := split_64 c1
  have h_c2 : c2 = q_c1 := k'_c1
  clear_value c2
  subst h_c2
  clear k'_c1
  have hd5 : d5 = d4 + 0x1000003D10 * c1l := by
    show u128AccumMul d4 mulR (u128ToU64 c1) = _
    rw [k_c1]
    exact acc_eq (show d4 + 0x1000003D10 * c1l < _ by omega)
  clear_value d5
  obtain ⟨q_d5, l_d5, e_d5, b_d5, k_d5, k'_d5⟩ := split_m52 d5
  have h_d6 : d6 = q_d5 := k'_d5
  clear_value d6
  subst h_d6
  clear k'_d5
  have h_t3 : t3 = l_d5 := k_d5
  clear_value t3
  subst h_t3
  clear k_d5
  have hd7 : d7 = d6 + a0 * b4 := acc_eq (show d6 + a0 * b4 < _ by omega)
  clear_value d7
  have hd8 : d8 = d7 + a1 * b3 := acc_eq (show d7 + a1 * b3 < _ by omega)
  clear_value d8
  have hd9 : d9 = d8 + a2 * b2 := acc_eq (show d8 + a2 * b2 < _ by omega)
  clear_value d9
  have hd10 : d10 = d9 + a3 * b1 := acc_eq (show d9 + a3 * b1 < _ by omega)
  clear_value d10
  have hd11 : d11 = d10 + a4 * b0 := acc_eq (show d10 + a4 * b0 < _ by omega)
  clear_value d11
  have k_c2 : u128ToU64 c2 = c2 := Nat.mod_eq_of_lt (by omega)
  have hd12 : d12 = d11 + 0x1000003D10000 * c2 := by
    show u128AccumMul d11 (u64 (mulR <<< 12)) (u128ToU64 c2) = _
    rw [mulR_shl, k_c2]
    exact acc_eq (show d11 + 0x1000003D10000 * c2 < _ by omega)
  clear_value d12
  obtain ⟨q_d12, l_d12, e_d12, b_d12, k_d12, k'_d12⟩ := split_m52 d12
  have h_d13 : d13 = q_d12 := k'_d12
  clear_value d13
  subst h_d13
  clear k'_d12
  have h_t4 : t4 = l_d12 := k_d12
  clear_value t4
  subst h_t4
  clear k_d12
  have htx : tx = t4 / 2 ^ 48 := Nat.shiftRight_eq_div_pow _ _
  have ht4 : t4' = t4 % 2 ^ 48 := land_m48 _
  clear_value tx t4'
  have e_t4 : t4 = tx * 2 ^ 48 + t4' := by omega
  have b_t4 : t4' < 2 ^ 48 := by omega
  have b_tx : tx < 2 ^ 4 := by omega
  clear htx ht4
  have hc3 : c3 = a0 * b0 := Nat.mod_eq_of_lt (show a0 * b0 < _ by omega)
  clear_value c3
  have hd14 : d14 = d13 + a1 * b4 := acc_eq (show d13 + a1 * b4 < _ by omega)
  clear_value d14
  have hd15 : d15 = d14 + a2 * b3 := acc_eq (show d14 + a2 * b3 < _ by omega)
  clear_value d15
  have hd16 : d16 = d15 + a3 * b2 := acc_eq (show d15 + a3 * b2 < _ by omega)
  clear_value d16
  have hd17 : d17 = d16 + a4 * b1 := acc_eq (show d16 + a4 * b1 < _ by omega)
  clear_value d17
  obtain ⟨q_d17, l_d17, e_d17, b_d17, k_d17, k'_d17⟩ := split_m52 d17
  have h_d18 : d18 = q_d17 := k'_d17
  clear_value d18
  subst h_d18
  clear k'_d17
  have h_u0 : u0 = l_d17 := k_d17
  clear_value u0
  subst h_u0
  clear k_d17
  have hu1 : u1 = u0 * 2 ^ 4 + tx := u0_eq (by omega) b_tx
  clear_value u1
  subst hu1
  have hc4 : c4 = c3 + (u0 * 2 ^ 4 + tx) * 0x1000003D1 := acc_eq (show c3 + (u0 * 2 ^ 4 + tx) * 0x1000003D1 < _ by omega)
  clear_value c4
  obtain ⟨q_c4, l_c4, e_c4, b_c4, k_c4, k'_c4⟩ := split_m52 c4
  have h_c5 : c5 = q_c4 := k'_c4
  clear_value c5
  subst h_c5
  clear k'_c4
  have h_r0 : r0 = l_c4 := k_c4
  clear_value r0
  subst h_r0
  clear k_c4
  have hc6 : c6 = c5 + a0 * b1 := acc_eq (show c5 + a0 * b1 < _ by omega)
  clear_value c6
  have hc7 : c7 = c6 + a1 * b0 := acc_eq (show c6 + a1 * b0 < _ by omega)
  clear_value c7
  have hd19 : d19 = d18 + a2 * b4 := acc_eq (show d18 + a2 * b4 < _ by omega)
  clear_value d19
  have hd20 : d20 = d19 + a3 * b3 := acc_eq (show d19 + a3 * b3 < _ by omega)
  clear_value d20
  have hd21 : d21 = d20 + a4 * b2 := acc_eq (show d20 + a4 * b2 < _ by omega)
  clear_value d21
  obtain ⟨q_d21, d21l, e_d21, b_d21, k_d21, k'_d21⟩ := split_m52 d21
  have h_d22 : d22 = q_d21 := k'_d21
  clear_value d22
  subst h_d22
  clear k'_d21
  have hc8 : c8 = c7 + d21l * 0x1000003D10 := by
    show u128AccumMul c7 (u128ToU64 d21 &&& m52) mulR = _
    rw [k_d21]
    exact acc_eq (show c7 + d21l * 0x1000003D10 < _ by omega)
  clear_value c8
  obtain ⟨q_c8, l_c8, e_c8, b_c8, k_c8, k'_c8⟩ := split_m52 c8
  have h_c9 : c9 = q_c8 := k'_c8
  clear_value c9
  subst h_c9
  clear k'_c8
  have h_r1 : r1 = l_c8 := k_c8
  clear_value r1
  subst h_r1
  clear k_c8
  have hc10 : c10 = c9 + a0 * b2 := acc_eq (show c9 + a0 * b2 < _ by omega)
  clear_value c10
  have hc11 : c11 = c10 + a1 * b1 := acc_eq (show c10 + a1 * b1 < _ by omega)
  clear_value c11
  have hc12 : c12 = c11 + a2 * b0 := acc_eq (show c11 + a2 * b0 < _ by omega)
  clear_value c12
  have hd23 : d23 = d22 + a3 * b4 := acc_eq (show d22 + a3 * b4 < _ by omega)
  clear_value d23
  have hd24 : d24 = d23 + a4 * b3 := acc_eq (show d23 + a4 * b3 < _ by omega)
  clear_value d24
  obtain ⟨q_d24, d24l, e_d24, b_d24, k_d24, k'_d24⟩ := split_64 d24
  have h_d25 : d25 = q_d24 := k'_d24
  clear_value d25
  subst h_d25
  clear k'_d24
  have hc13 : c13 = c12 + 0x1000003D10 * d24l := by
    show u128AccumMul c12 mulR (u128ToU64 d24) = _
    rw [k_d24]
    exact acc_eq (show c12 + 0x1000003D10 * d24l < _ by omega)
  clear_value c13
  obtain ⟨q_c13, l_c13, e_c13, b_c13, k_c13, k'_c13⟩ := split_m52 c13
  have h_c14 : c14 = q_c13 := k'_c13
  clear_value c14
  subst h_c14
  clear k'_c13
  have h_r2 : r2 = l_c13 := k_c13
  clear_value r2
  subst h_r2
  clear k_c13
  have k_d25 : u128ToU64 d25 = d25 := Nat.mod_eq_of_lt (by omega)
  have hc15 : c15 = c14 + 0x1000003D10000 * d25 := by
    show u128AccumMul c14 (u64 (mulR <<< 12)) (u128ToU64 d25) = _
    rw [mulR_shl, k_d25]
    exact acc_eq (show c14 + 0x1000003D10000 * d25 < _ by omega)
  clear_value c15
  have hc16 : c16 = c15 + t3 := Nat.mod_eq_of_lt (show c15 + t3 < _ by omega)
  clear_value c16
  obtain ⟨q_c16, l_c16, e_c16, b_c16, k_c16, k'_c16⟩ := split_m52 c16
  have h_c17 : c17 = q_c16 := k'_c16
  clear_value c17
  subst h_c17
  clear k'_c16
  have h_r3 : r3 = l_c16 := k_c16
  clear_value r3
  subst h_r3
  clear k_c16
  have hr4 : r4 = c17 + t4' := by
    have : u128ToU64 c17 = c17 := Nat.mod_eq_of_lt (by omega)
    show u64 (u128ToU64 c17 + t4') = _
    rw [this]
    exact Nat.mod_eq_of_lt (by omega)
  clear_value r4
  subst hr4
  subst hr
  refine ⟨⟨by simp only; omega, by simp only; omega, by simp only; omega, by simp only; omega, by simp only; omega⟩, ?_⟩
  show ((r0 + r1 * 2 ^ 52 + r2 * 2 ^ 104 + r3 * 2 ^ 156 + (c17 + t4') * 2 ^ 208 : ℕ) : Fp) = _
  exact mul_combine (q := c2) (r := c1l) (d1 := d6) (d2 := d13) (d3 := d18) (c1 := c5) (d4 := d22) (u1 := d21l)
    (c2 := c9) (d5 := d25) (u2 := d24l) (c3 := c14) (c4 := c17) (t3 := t3) (t4 := t4) (tx := tx) (u0 := u0) (by omega) (by omega) (by omega) e_t4 (by omega) (by omega) (by omega) (by omega) (by omega) (by omega) (by omega)


set_option exponentiation.threshold 500 in
theorem sqr_spec {a : Fe5} (ha : a.Bits) :
    (sqr a).Mag 1 ∧ (((sqr a).nat : ℕ) : Fp) = ((a.nat : ℕ) : Fp) * ((a.nat : ℕ) : Fp) := by
  obtain ⟨a0, a1, a2, a3, a4⟩ := a
  obtain ⟨ha0, ha1, ha2, ha3, ha4⟩ := ha
  simp only at ha0 ha1 ha2 ha3 ha4
  have k0 : u64 (a0 * 2) = a0 * 2 := Nat.mod_eq_of_lt (by omega)
  have k1 : u64 (a1 * 2) = a1 * 2 := Nat.mod_eq_of_lt (by omega)
  have k2 : u64 (a2 * 2) = a2 * 2 := Nat.mod_eq_of_lt (by omega)
  have k4 : u64 (a4 * 2) = a4 * 2 := Nat.mod_eq_of_lt (by omega)
  have g0 : a0 * 2 < 2 ^ 57 := by omega
  have g1 : a1 * 2 < 2 ^ 57 := by omega
  have g2 : a2 * 2 < 2 ^ 57 := by omega
  have g4 : a4 * 2 < 2 ^ 53 := by omega
  have B00 := mul_lt ha0 ha0
  have B01 := mul_lt g0 ha1
  have B02 := mul_lt g0 ha2
  have B03 := mul_lt g0 ha3
  have B04 := mul_lt ha0 g4
  have B11 := mul_lt ha1 ha1
  have B12 := mul_lt g1 ha2
  have B13 := mul_lt g1 ha3
  have B14 := mul_lt ha1 g4
  have B22 := mul_lt ha2 ha2
  have B23 := mul_lt g2 ha3
  have B24 := mul_lt ha2 g4
  have B33 := mul_lt ha3 ha3
  have B34 := mul_lt ha3 g4
  have B44 := mul_lt ha4 ha4
  have hn : (a0 + a1 * 2 ^ 52 + a2 * 2 ^ 104 + a3 * 2 ^ 156 + a4 * 2 ^ 208) *
      (a0 + a1 * 2 ^ 52 + a2 * 2 ^ 104 + a3 * 2 ^ 156 + a4 * 2 ^ 208) =
      (a0 * a0) + (a0 * 2 * a1) * 2 ^ 52 + (a0 * 2 * a2 + a1 * a1) * 2 ^ 104 +
      (a0 * 2 * a3 + a1 * 2 * a2) * 2 ^ 156 +
      (a0 * (a4 * 2) + a1 * 2 * a3 + a2 * a2) * 2 ^ 208 +
      (a1 * (a4 * 2) + a2 * 2 * a3) * 2 ^ 260 + (a2 * (a4 * 2) + a3 * a3) * 2 ^ 312 +
      (a3 * (a4 * 2)) * 2 ^ 364 + (a4 * a4) * 2 ^ 416 := by ring
  clear ha0 ha1 ha2 ha3 ha4 g0 g1 g2 g4
  obtain ⟨r, hr⟩ : ∃ r, sqr ⟨a0, a1, a2, a3, a4⟩ = r := ⟨_, rfl⟩
  rw [hr, ← Nat.cast_mul]
  unfold nat
  simp only
  rw [hn]
  clear hn
  unfold sqr at hr
  extract_lets x0 x4 d1 d2 c1 d5 c2 t3 d6 A4 d7 d8 d11 d12 t4 d13 tx t4' c3 d14 d17 u0 d18 u1 c4
    r0 c5 A0 c7 d19 d21 c8 d22 r1 c9 c10 c12 d24 c13 d25 r2 c14 c15 c16 r3 c17 r4 at hr
  have hd1 : d1 = (a0 * 2) * a3 := by
    show u128Mul (u64 (a0 * 2)) a3 = _
    rw [k0]
    exact Nat.mod_eq_of_lt (show (a0 * 2) * a3 < _ by omega)
  clear_value d1
  have hd2 : d2 = d1 + (a1 * 2) * a2 := by
    show u128AccumMul d1 (u64 (a1 * 2)) a2 = _
    rw [k1]
    exact Nat.mod_eq_of_lt (show d1 + (a1 * 2) * a2 < _ by omega)
  clear_value d2
  have hc1 : c1 = a4 * a4 := by
    show u128Mul a4 a4 = _
    exact Nat.mod_eq_of_lt (show a4 * a4 < _ by omega)
  clear_value c1
  obtain ⟨q_c1, c1l, e_c1, b_c1, k_c1, k'_c1⟩ := split_64 c1
  have h_c2 : c2 = q_c1 := k'_c1
  clear_value c2
  subst h_c2
  clear k'_c1
  have hd5 : d5 = d2 + 0x1000003D10 * c1l := by
    show u128AccumMul d2 mulR (u128ToU64 c1) = _
    rw [k_c1]
    exact Nat.mod_eq_of_lt (show d2 + 0x1000003D10 * c1l < _ by omega)
  clear_value d5
  obtain ⟨q_d5, l_d5, e_d5, b_d5, k_d5, k'_d5⟩ := split_m52 d5
  have h_d6 : d6 = q_d5 := k'_d5
  clear_value d6
  subst h_d6
  clear k'_d5
  have h_t3 : t3 = l_d5 := k_d5
  clear_value t3
  subst h_t3
  clear k_d5
  have h_A4 : A4 = a4 * 2 := k4
  clear_value A4
  subst h_A4
  have hd7 : d7 = d6 + a0 * (a4 * 2) := by
    show u128AccumMul d6 a0 (a4 * 2) = _
    exact Nat.mod_eq_of_lt (show d6 + a0 * (a4 * 2) < _ by omega)
  clear_value d7
  have hd8 : d8 = d7 + (a1 * 2) * a3 := by
    show u128AccumMul d7 (u64 (a1 * 2)) a3 = _
    rw [k1]
    exact Nat.mod_eq_of_lt (show d7 + (a1 * 2) * a3 < _ by omega)
  clear_value d8
  have hd11 : d11 = d8 + a2 * a2 := by
    show u128AccumMul d8 a2 a2 = _
    exact Nat.mod_eq_of_lt (show d8 + a2 * a2 < _ by omega)
  clear_value d11
  have k_c2 : u128ToU64 c2 = c2 := Nat.mod_eq_of_lt (by omega)
  have hd12 : d12 = d11 + 0x1000003D10000 * c2 := by
    show u128AccumMul d11 (u64 (mulR <<< 12)) (u128ToU64 c2) = _
    rw [mulR_shl, k_c2]
    exact Nat.mod_eq_of_lt (show d11 + 0x1000003D10000 * c2 < _ by omega)
  clear_value d12
  obtain ⟨q_d12, l_d12, e_d12, b_d12, k_d12, k'_d12⟩ := split_m52 d12
  have h_d13 : d13 = q_d12 := k'_d12
  clear_value d13
  subst h_d13
  clear k'_d12
  have h_t4 : t4 = l_d12 := k_d12
  clear_value t4
  subst h_t4
  clear k_d12
  have htx : tx = t4 / 2 ^ 48 := Nat.shiftRight_eq_div_pow _ _
  have ht4 : t4' = t4 % 2 ^ 48 := land_m48 _
  clear_value tx t4'
  have e_t4 : t4 = tx * 2 ^ 48 + t4' := by omega
  have b_t4 : t4' < 2 ^ 48 := by omega
  have b_tx : tx < 2 ^ 4 := by omega
  clear htx ht4
  have hc3 : c3 = a0 * a0 := by
    show u128Mul a0 a0 = _
    exact Nat.mod_eq_of_lt (show a0 * a0 < _ by omega)
  clear_value c3
  have hd14 : d14 = d13 + a1 * (a4 * 2) := by
    show u128AccumMul d13 a1 (a4 * 2) = _
    exact Nat.mod_eq_of_lt (show d13 + a1 * (a4 * 2) < _ by omega)
  clear_value d14
  have hd17 : d17 = d14 + (a2 * 2) * a3 := by
    show u128AccumMul d14 (u64 (a2 * 2)) a3 = _
    rw [k2]
    exact Nat.mod_eq_of_lt (show d14 + (a2 * 2) * a3 < _ by omega)
  clear_value d17
  obtain ⟨q_d17, l_d17, e_d17, b_d17, k_d17, k'_d17⟩ := split_m52 d17
  have h_d18 : d18 = q_d17 := k'_d17
  clear_value d18
  subst h_d18
  clear k'_d17
  have h_u0 : u0 = l_d17 := k_d17
  clear_value u0
  subst h_u0
  clear k_d17
  have hu1 : u1 = u0 * 2 ^ 4 + tx := u0_eq (by omega) b_tx
  clear_value u1
  subst hu1
  have hc4 : c4 = c3 + (u0 * 2 ^ 4 + tx) * 0x1000003D1 := by
    show u128AccumMul c3 (u0 * 2 ^ 4 + tx) (mulR >>> 4) = _
    rw [mulR_shr]
    exact Nat.mod_eq_of_lt (show c3 + (u0 * 2 ^ 4 + tx) * 0x1000003D1 < _ by omega)
  clear_value c4
  obtain ⟨q_c4, l_c4, e_c4, b_c4, k_c4, k'_c4⟩ := split_m52 c4
  have h_c5 : c5 = q_c4 := k'_c4
  clear_value c5
  subst h_c5
  clear k'_c4
  have h_r0 : r0 = l_c4 := k_c4
  clear_value r0
  subst h_r0
  clear k_c4
  have h_A0 : A0 = a0 * 2 := k0
  clear_value A0
  subst h_A0
  have hc7 : c7 = c5 + (a0 * 2) * a1 := by
    show u128AccumMul c5 (a0 * 2) a1 = _
    exact Nat.mod_eq_of_lt (show c5 + (a0 * 2) * a1 < _ by omega)
  clear_value c7
  have hd19 : d19 = d18 + a2 * (a4 * 2) := by
    show u128AccumMul d18 a2 (a4 * 2) = _
    exact Nat.mod_eq_of_lt (show d18 + a2 * (a4 * 2) < _ by omega)
  clear_value d19
  have hd21 : d21 = d19 + a3 * a3 := by
    show u128AccumMul d19 a3 a3 = _
    exact Nat.mod_eq_of_lt (show d19 + a3 * a3 < _ by omega)
  clear_value d21
  obtain ⟨q_d21, d21l, e_d21, b_d21, k_d21, k'_d21⟩ := split_m52 d21
  have h_d22 : d22 = q_d21 := k'_d21
  clear_value d22
  subst h_d22
  clear k'_d21
  have hc8 : c8 = c7 + d21l * 0x1000003D10 := by
    show u128AccumMul c7 (u128ToU64 d21 &&& m52) mulR = _
    rw [k_d21]
    exact Nat.mod_eq_of_lt (show c7 + d21l * 0x1000003D10 < _ by omega)
  clear_value c8
  obtain ⟨q_c8, l_c8, e_c8, b_c8, k_c8, k'_c8⟩ := split_m52 c8
  have h_c9 : c9 = q_c8 := k'_c8
  clear_value c9
  subst h_c9
  clear k'_c8
  have h_r1 : r1 = l_c8 := k_c8
  clear_value r1
  subst h_r1
  clear k_c8
  have hc10 : c10 = c9 + (a0 * 2) * a2 := by
    show u128AccumMul c9 (a0 * 2) a2 = _
    exact Nat.mod_eq_of_lt (show c9 + (a0 * 2) * a2 < _ by omega)
  clear_value c10
  have hc12 : c12 = c10 + a1 * a1 := by
    show u128AccumMul c10 a1 a1 = _
    exact Nat.mod_eq_of_lt (show c10 + a1 * a1 < _ by omega)
  clear_value c12
  have hd24 : d24 = d22 + a3 * (a4 * 2) := by
    show u128AccumMul d22 a3 (a4 * 2) = _
    exact Nat.mod_eq_of_lt (show d22 + a3 * (a4 * 2) < _ by omega)
  clear_value d24
  obtain ⟨q_d24, d24l, e_d24, b_d24, k_d24, k'_d24⟩ := split_64 d24
  have h_d25 : d25 = q_d24 := k'_d24
  clear_value d25
  subst h_d25
  clear k'_d24
  have hc13 : c13 = c12 + 0x1000003D10 * d24l := by
    show u128AccumMul c12 mulR (u128ToU64 d24) = _
    rw [k_d24]
    exact Nat.mod_eq_of_lt (show c12 + 0x1000003D10 * d24l < _ by omega)
  clear_value c13
  obtain ⟨q_c13, l_c13, e_c13, b_c13, k_c13, k'_c13⟩ := split_m52 c13
  have h_c14 : c14 = q_c13 := k'_c13
  clear_value c14
  subst h_c14
  clear k'_c13
  have h_r2 : r2 = l_c13 := k_c13
  clear_value r2
  subst h_r2
  clear k_c13
  have k_d25 : u128ToU64 d25 = d25 := Nat.mod_eq_of_lt (by omega)
  have hc15 : c15 = c14 + 0x1000003D10000 * d25 := by
    show u128AccumMul c14 (u64 (mulR <<< 12)) (u128ToU64 d25) = _
    rw [mulR_shl, k_d25]
    exact Nat.mod_eq_of_lt (show c14 + 0x1000003D10000 * d25 < _ by omega)
  clear_value c15
  have hc16 : c16 = c15 + t3 := Nat.mod_eq_of_lt (show c15 + t3 < _ by omega)
  clear_value c16
  obtain ⟨q_c16, l_c16, e_c16, b_c16, k_c16, k'_c16⟩ := split_m52 c16
  have h_c17 : c17 = q_c16 := k'_c16
  clear_value c17
  subst h_c17
  clear k'_c16
  have h_r3 : r3 = l_c16 := k_c16
  clear_value r3
  subst h_r3
  clear k_c16
  have hr4 : r4 = c17 + t4' := by
    have : u128ToU64 c17 = c17 := Nat.mod_eq_of_lt (by omega)
    show u64 (u128ToU64 c17 + t4') = _
    rw [this]
    exact Nat.mod_eq_of_lt (by omega)
  clear_value r4
  subst hr4
  subst hr
  refine ⟨⟨by simp only; omega, by simp only; omega, by simp only; omega, by simp only; omega, by simp only; omega⟩, ?_⟩
  show ((r0 + r1 * 2 ^ 52 + r2 * 2 ^ 104 + r3 * 2 ^ 156 + (c17 + t4') * 2 ^ 208 : ℕ) : Fp) = _
  exact mul_combine (q := c2) (r := c1l) (d1 := d6) (d2 := d13) (d3 := d18) (c1 := c5) (d4 := d22)
    (u1 := d21l) (c2 := c9) (d5 := d25) (u2 := d24l) (c3 := c14) (c4 := c17) (t3 := t3) (t4 := t4)
    (tx := tx) (u0 := u0) (by omega) (by omega) (by omega) e_t4 (by omega) (by omega) (by omega)
    (by omega) (by omega) (by omega) (by omega)

end Model.Fe5
end Secp
