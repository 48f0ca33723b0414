import Verif.Proof.Field10x26

/-!
# Helper lemmas: multiplication and squaring of field elements on 32-bit limbs
-/

namespace Secp
open Model
namespace Model.Fe10

/-- The bounds the inner multiplication needs (field_10x26_impl.h:407-426). -/
structure Bits (a : Fe10) : Prop where
  n0 : a.n0 ≤ 2 ^ 30
  n1 : a.n1 ≤ 2 ^ 30
  n2 : a.n2 ≤ 2 ^ 30
  n3 : a.n3 ≤ 2 ^ 30
  n4 : a.n4 ≤ 2 ^ 30
  n5 : a.n5 ≤ 2 ^ 30
  n6 : a.n6 ≤ 2 ^ 30
  n7 : a.n7 ≤ 2 ^ 30
  n8 : a.n8 ≤ 2 ^ 30
  n9 : a.n9 ≤ 2 ^ 26

theorem Mag.bits {a : Fe10} (h : a.Mag 8) : a.Bits := by
  obtain ⟨h0, h1, h2, h3, h4, h5, h6, h7, h8, h9⟩ := h
  constructor <;> omega

theorem mulCol_spec {c d pc pd : ℕ} (hc : c + pc + 2 ^ 26 * 0x3D10 ≤ 2 ^ 64) (hd : d + pd < 2 ^ 64) :
    ∃ t c' d' u e, mulCol c d pc pd = (t, c', d') ∧ d + pd = d' * 2 ^ 26 + u ∧
      c + pc + u * 0x3D10 = e * 2 ^ 26 + t ∧ c' = e + u * 0x400 ∧ t < 2 ^ 26 ∧ c' < 2 ^ 39 := by
  unfold mulCol
  have e1 : u64 (c + pc) = c + pc := Nat.mod_eq_of_lt (by omega)
  have e2 : u64 (d + pd) = d + pd := Nat.mod_eq_of_lt hd
  have hu := Nat.mod_lt (d + pd) (show 0 < 2 ^ 26 by norm_num)
  have hq := Nat.div_add_mod (d + pd) (2 ^ 26)
  simp only [e1, e2, land_m26, Nat.shiftRight_eq_div_pow]
  generalize (d + pd) % 2 ^ 26 = u at *
  generalize (d + pd) / 2 ^ 26 = d' at *
  have e3 : u64 (c + pc + u * 0x3D10) = c + pc + u * 0x3D10 := Nat.mod_eq_of_lt (by omega)
  rw [e3]
  have e4 : u64 ((c + pc + u * 0x3D10) / 2 ^ 26 + u * 0x400) = (c + pc + u * 0x3D10) / 2 ^ 26 + u * 0x400 :=
    Nat.mod_eq_of_lt (by omega)
  rw [e4]
  exact ⟨_, _, _, u, (c + pc + u * 0x3D10) / 2 ^ 26, rfl, by omega, by omega, rfl, by omega, by omega⟩

theorem mulEnd_spec {c d t0 t1 t2 t9 : ℕ} (bc : c < 2 ^ 39) (bd : d < 2 ^ 27) (bt0 : t0 < 2 ^ 26) (bt1 : t1 < 2 ^ 26)
    (bt2 : t2 < 2 ^ 26) (m9 : t9 < 2 ^ 26) :
    ∃ x y r9 z r0 w r1, mulEnd c d t0 t1 t2 t9 = (r0, r1, w + t2, r9) ∧
      c + d * 0x3D10 + t9 = x * 2 ^ 22 + r9 ∧ y = x + d * 0x4000 ∧
      y * 0x3D1 + t0 = z * 2 ^ 26 + r0 ∧ z + y * 0x40 + t1 = w * 2 ^ 26 + r1 ∧
      r9 < 2 ^ 22 ∧ r0 < 2 ^ 26 ∧ r1 < 2 ^ 26 ∧ w < 2 ^ 23 := by
  obtain ⟨r, hr⟩ : ∃ r, mulEnd c d t0 t1 t2 t9 = r := ⟨_, rfl⟩
  rw [hr]
  unfold mulEnd at hr
  simp only [land_m26, Nat.shiftRight_eq_div_pow] at hr
  have s1 : u64 (c + d * 0x3D10 + t9) = c + d * 0x3D10 + t9 := Nat.mod_eq_of_lt (by omega)
  have s2 : ∀ y, y &&& (m26 / 2 ^ 4) = y % 2 ^ 22 := land_m22
  rw [s1, s2] at hr
  have hx : c + d * 0x3D10 + t9 = (c + d * 0x3D10 + t9) / 2 ^ 22 * 2 ^ 22 + (c + d * 0x3D10 + t9) % 2 ^ 22 := by
    omega
  have bx : (c + d * 0x3D10 + t9) / 2 ^ 22 < 2 ^ 21 := by omega
  have b9 := Nat.mod_lt (c + d * 0x3D10 + t9) (show 0 < 2 ^ 22 by norm_num)
  generalize (c + d * 0x3D10 + t9) / 2 ^ 22 = x at *
  generalize (c + d * 0x3D10 + t9) % 2 ^ 22 = r9 at *
  have s3 : u64 (x + d * (0x400 <<< 4)) = x + d * 0x4000 := Nat.mod_eq_of_lt (by omega)
  rw [s3] at hr
  obtain ⟨y, hy⟩ : ∃ y, y = x + d * 0x4000 := ⟨_, rfl⟩
  have by' : y < 2 ^ 42 := by omega
  rw [← hy] at hr
  have s4 : u64 (y * (0x3D10 / 2 ^ 4) + t0) = y * 0x3D1 + t0 := Nat.mod_eq_of_lt (by omega)
  rw [s4] at hr
  have hz : y * 0x3D1 + t0 = (y * 0x3D1 + t0) / 2 ^ 26 * 2 ^ 26 + (y * 0x3D1 + t0) % 2 ^ 26 := by omega
  have b0' := Nat.mod_lt (y * 0x3D1 + t0) (show 0 < 2 ^ 26 by norm_num)
  have bz : (y * 0x3D1 + t0) / 2 ^ 26 < 2 ^ 27 := by omega
  generalize (y * 0x3D1 + t0) / 2 ^ 26 = z at *
  generalize (y * 0x3D1 + t0) % 2 ^ 26 = r0 at *
  have s5 : u64 (z + y * (0x400 / 2 ^ 4) + t1) = z + y * 0x40 + t1 := Nat.mod_eq_of_lt (by omega)
  rw [s5] at hr
  have hw : z + y * 0x40 + t1 = (z + y * 0x40 + t1) / 2 ^ 26 * 2 ^ 26 + (z + y * 0x40 + t1) % 2 ^ 26 := by omega
  have b1' := Nat.mod_lt (z + y * 0x40 + t1) (show 0 < 2 ^ 26 by norm_num)
  have bw : (z + y * 0x40 + t1) / 2 ^ 26 < 2 ^ 23 := by omega
  generalize (z + y * 0x40 + t1) / 2 ^ 26 = w at *
  generalize (z + y * 0x40 + t1) % 2 ^ 26 = r1 at *
  have s6 : u32 (u64 (w + t2)) = w + t2 := by unfold u32 u64; omega
  rw [s6] at hr
  exact ⟨x, y, r9, z, r0, w, r1, hr.symm, hx, hy, hz, hw, b9, b0', b1', bw⟩

set_option exponentiation.threshold 500 in
/-- The way the inner multiplication carries is linear: everything is exact modulo `p`. -/
theorem mul_combine {q0 q1 q2 q3 q4 q5 q6 q7 q8 q9 q10 q11 q12 q13 q14 q15 q16 q17 q18 : ℕ}
    {t0 d0 u0 e0 c0 t1 d1 u1 e1 c1 t2 d2 u2 e2 c2 t3 d3 u3 e3 c3 t4 d4 u4 e4 c4 t5 d5 u5 e5 c5 t6 d6 u6 e6 c6 t7 d7 u7 e7 c7 t8 d8 u8 e8 c8 t9 dd x y r9 z r0 w r1 : ℕ}
    (h9 : q9 = dd * 2 ^ 26 + t9)
    (hd0 : dd + q10 = d0 * 2 ^ 26 + u0) (he0 : q0 + u0 * 0x3D10 = e0 * 2 ^ 26 + t0)
    (hc0 : c0 = e0 + u0 * 0x400)
    (hd1 : d0 + q11 = d1 * 2 ^ 26 + u1) (he1 : c0 + q1 + u1 * 0x3D10 = e1 * 2 ^ 26 + t1)
    (hc1 : c1 = e1 + u1 * 0x400)
    (hd2 : d1 + q12 = d2 * 2 ^ 26 + u2) (he2 : c1 + q2 + u2 * 0x3D10 = e2 * 2 ^ 26 + t2)
    (hc2 : c2 = e2 + u2 * 0x400)
    (hd3 : d2 + q13 = d3 * 2 ^ 26 + u3) (he3 : c2 + q3 + u3 * 0x3D10 = e3 * 2 ^ 26 + t3)
    (hc3 : c3 = e3 + u3 * 0x400)
    (hd4 : d3 + q14 = d4 * 2 ^ 26 + u4) (he4 : c3 + q4 + u4 * 0x3D10 = e4 * 2 ^ 26 + t4)
    (hc4 : c4 = e4 + u4 * 0x400)
    (hd5 : d4 + q15 = d5 * 2 ^ 26 + u5) (he5 : c4 + q5 + u5 * 0x3D10 = e5 * 2 ^ 26 + t5)
    (hc5 : c5 = e5 + u5 * 0x400)
    (hd6 : d5 + q16 = d6 * 2 ^ 26 + u6) (he6 : c5 + q6 + u6 * 0x3D10 = e6 * 2 ^ 26 + t6)
    (hc6 : c6 = e6 + u6 * 0x400)
    (hd7 : d6 + q17 = d7 * 2 ^ 26 + u7) (he7 : c6 + q7 + u7 * 0x3D10 = e7 * 2 ^ 26 + t7)
    (hc7 : c7 = e7 + u7 * 0x400)
    (hd8 : d7 + q18 = d8 * 2 ^ 26 + u8) (he8 : c7 + q8 + u8 * 0x3D10 = e8 * 2 ^ 26 + t8)
    (hc8 : c8 = e8 + u8 * 0x400)
    (hx : c8 + d8 * 0x3D10 + t9 = x * 2 ^ 22 + r9) (hy : y = x + d8 * 0x4000)
    (hz : y * 0x3D1 + t0 = z * 2 ^ 26 + r0) (hw : z + y * 0x40 + t1 = w * 2 ^ 26 + r1) :
    ((r0 + r1 * 2 ^ 26 + (w + t2) * 2 ^ 52 + t3 * 2 ^ 78 + t4 * 2 ^ 104 + t5 * 2 ^ 130 + t6 * 2 ^ 156 + t7 * 2 ^ 182 + t8 * 2 ^ 208 + r9 * 2 ^ 234 : ℕ) : Fp) =
      ((q0 + q1 * 2 ^ 26 + q2 * 2 ^ 52 + q3 * 2 ^ 78 + q4 * 2 ^ 104 + q5 * 2 ^ 130 + q6 * 2 ^ 156 + q7 * 2 ^ 182 + q8 * 2 ^ 208 + q9 * 2 ^ 234 + q10 * 2 ^ 260 + q11 * 2 ^ 286 + q12 * 2 ^ 312 + q13 * 2 ^ 338 + q14 * 2 ^ 364 + q15 * 2 ^ 390 + q16 * 2 ^ 416 + q17 * 2 ^ 442 + q18 * 2 ^ 468 : ℕ) : Fp) := by
  have key : q0 + q1 * 2 ^ 26 + q2 * 2 ^ 52 + q3 * 2 ^ 78 + q4 * 2 ^ 104 + q5 * 2 ^ 130 + q6 * 2 ^ 156 + q7 * 2 ^ 182 + q8 * 2 ^ 208 + q9 * 2 ^ 234 + q10 * 2 ^ 260 + q11 * 2 ^ 286 + q12 * 2 ^ 312 + q13 * 2 ^ 338 + q14 * 2 ^ 364 + q15 * 2 ^ 390 + q16 * 2 ^ 416 + q17 * 2 ^ 442 + q18 * 2 ^ 468 =
      r0 + r1 * 2 ^ 26 + (w + t2) * 2 ^ 52 + t3 * 2 ^ 78 + t4 * 2 ^ 104 + t5 * 2 ^ 130 + t6 * 2 ^ 156 + t7 * 2 ^ 182 + t8 * 2 ^ 208 + r9 * 2 ^ 234 +
      (u0 * 2 ^ 4 + u1 * 2 ^ 30 + u2 * 2 ^ 56 + u3 * 2 ^ 82 + u4 * 2 ^ 108 + u5 * 2 ^ 134 + u6 * 2 ^ 160 + u7 * 2 ^ 186 + u8 * 2 ^ 212 + d8 * 2 ^ 238 + y) *
      115792089237316195423570985008687907853269984665640564039457584007908834671663 := by
    zify at *
    linear_combination 2 ^ 234 * h9 + 2 ^ 260 * hd0 + he0 + (- 2 ^ 26) * hc0 + 2 ^ 286 * hd1 + 2 ^ 26 * he1 + (- 2 ^ 52) * hc1 + 2 ^ 312 * hd2 + 2 ^ 52 * he2 + (- 2 ^ 78) * hc2 + 2 ^ 338 * hd3 + 2 ^ 78 * he3 + (- 2 ^ 104) * hc3 + 2 ^ 364 * hd4 + 2 ^ 104 * he4 + (- 2 ^ 130) * hc4 + 2 ^ 390 * hd5 + 2 ^ 130 * he5 + (- 2 ^ 156) * hc5 + 2 ^ 416 * hd6 + 2 ^ 156 * he6 + (- 2 ^ 182) * hc6 + 2 ^ 442 * hd7 + 2 ^ 182 * he7 + (- 2 ^ 208) * hc7 + 2 ^ 468 * hd8 + 2 ^ 208 * he8 + (- 2 ^ 234) * hc8 + 2 ^ 234 * hx + (- 2 ^ 256) * hy + hz + 2 ^ 26 * hw
  have hp : p = 115792089237316195423570985008687907853269984665640564039457584007908834671663 := by
    unfold p; rfl
  rw [key, ← hp, Nat.cast_add _ (_ * p), Nat.cast_mul _ p, ZMod.natCast_self, mul_zero, add_zero]

set_option exponentiation.threshold 500 in
/-- The multiplication is exact modulo `p` for sums of products within the bounds. -/
theorem mulCols_spec {q : ℕ → ℕ} (hq : ∀ k < 17, q k ≤ 9 * 2 ^ 60) (h17 : q 17 ≤ 2 ^ 57) (h18 : q 18 ≤ 2 ^ 52) :
    (mulCols q).Mag 1 ∧ ((mulCols q).nat : Fp) =
      ((q 0 + q 1 * 2 ^ 26 + q 2 * 2 ^ 52 + q 3 * 2 ^ 78 + q 4 * 2 ^ 104 + q 5 * 2 ^ 130 + q 6 * 2 ^ 156 + q 7 * 2 ^ 182 + q 8 * 2 ^ 208 + q 9 * 2 ^ 234 + q 10 * 2 ^ 260 + q 11 * 2 ^ 286 + q 12 * 2 ^ 312 + q 13 * 2 ^ 338 + q 14 * 2 ^ 364 + q 15 * 2 ^ 390 + q 16 * 2 ^ 416 + q 17 * 2 ^ 442 + q 18 * 2 ^ 468 : ℕ) : Fp) := by
  have b0 := hq 0 (by norm_num)
  have b1 := hq 1 (by norm_num)
  have b2 := hq 2 (by norm_num)
  have b3 := hq 3 (by norm_num)
  have b4 := hq 4 (by norm_num)
  have b5 := hq 5 (by norm_num)
  have b6 := hq 6 (by norm_num)
  have b7 := hq 7 (by norm_num)
  have b8 := hq 8 (by norm_num)
  have b9 := hq 9 (by norm_num)
  have b10 := hq 10 (by norm_num)
  have b11 := hq 11 (by norm_num)
  have b12 := hq 12 (by norm_num)
  have b13 := hq 13 (by norm_num)
  have b14 := hq 14 (by norm_num)
  have b15 := hq 15 (by norm_num)
  have b16 := hq 16 (by norm_num)
  generalize hq0 : q 0 = q0 at *
  generalize hq1 : q 1 = q1 at *
  generalize hq2 : q 2 = q2 at *
  generalize hq3 : q 3 = q3 at *
  generalize hq4 : q 4 = q4 at *
  generalize hq5 : q 5 = q5 at *
  generalize hq6 : q 6 = q6 at *
  generalize hq7 : q 7 = q7 at *
  generalize hq8 : q 8 = q8 at *
  generalize hq9 : q 9 = q9 at *
  generalize hq10 : q 10 = q10 at *
  generalize hq11 : q 11 = q11 at *
  generalize hq12 : q 12 = q12 at *
  generalize hq13 : q 13 = q13 at *
  generalize hq14 : q 14 = q14 at *
  generalize hq15 : q 15 = q15 at *
  generalize hq16 : q 16 = q16 at *
  generalize hq17 : q 17 = q17 at *
  generalize hq18 : q 18 = q18 at *
  have m9 := Nat.mod_lt q9 (show 0 < 2 ^ 26 by norm_num)
  have v9 : q9 = q9 / 2 ^ 26 * 2 ^ 26 + q9 % 2 ^ 26 := by omega
  have w9 : u64 q9 = q9 := Nat.mod_eq_of_lt (by omega)
  obtain ⟨r, hr⟩ : ∃ r, mulCols q = r := ⟨_, rfl⟩
  rw [hr]
  unfold mulCols at hr
  simp only [hq0, hq1, hq2, hq3, hq4, hq5, hq6, hq7, hq8, hq9, hq10, hq11, hq12, hq13, hq14, hq15, hq16, hq17, hq18, w9, land_m26, Nat.shiftRight_eq_div_pow] at hr
  generalize q9 / 2 ^ 26 = dd at *
  generalize q9 % 2 ^ 26 = t9 at *
  have bd : dd < 2 ^ 38 := by omega
  obtain ⟨t0, c0, d0, u0, e0, f0, hd0, he0, hc0, bt0, bc0⟩ :=
    mulCol_spec (c := 0) (d := dd) (pc := q0) (pd := q10) (by omega) (by omega)
  rw [Nat.zero_add] at he0
  have bd0 : d0 < 2 ^ 38 := by omega
  simp only [f0] at hr
  clear f0
  obtain ⟨t1, c1, d1, u1, e1, f1, hd1, he1, hc1, bt1, bc1⟩ :=
    mulCol_spec (c := c0) (d := d0) (pc := q1) (pd := q11) (by omega) (by omega)
  have bd1 : d1 < 2 ^ 38 := by omega
  simp only [f1] at hr
  clear f1
  obtain ⟨t2, c2, d2, u2, e2, f2, hd2, he2, hc2, bt2, bc2⟩ :=
    mulCol_spec (c := c1) (d := d1) (pc := q2) (pd := q12) (by omega) (by omega)
  have bd2 : d2 < 2 ^ 38 := by omega
  simp only [f2] at hr
  clear f2
  obtain ⟨t3, c3, d3, u3, e3, f3, hd3, he3, hc3, bt3, bc3⟩ :=
    mulCol_spec (c := c2) (d := d2) (pc := q3) (pd := q13) (by omega) (by omega)
  have bd3 : d3 < 2 ^ 38 := by omega
  simp only [f3] at hr
  clear f3
  obtain ⟨t4, c4, d4, u4, e4, f4, hd4, he4, hc4, bt4, bc4⟩ :=
    mulCol_spec (c := c3) (d := d3) (pc := q4) (pd := q14) (by omega) (by omega)
  have bd4 : d4 < 2 ^ 38 := by omega
  simp only [f4] at hr
  clear f4
  obtain ⟨t5, c5, d5, u5, e5, f5, hd5, he5, hc5, bt5, bc5⟩ :=
    mulCol_spec (c := c4) (d := d4) (pc := q5) (pd := q15) (by omega) (by omega)
  have bd5 : d5 < 2 ^ 38 := by omega
  simp only [f5] at hr
  clear f5
  obtain ⟨t6, c6, d6, u6, e6, f6, hd6, he6, hc6, bt6, bc6⟩ :=
    mulCol_spec (c := c5) (d := d5) (pc := q6) (pd := q16) (by omega) (by omega)
  have bd6 : d6 < 2 ^ 38 := by omega
  simp only [f6] at hr
  clear f6
  obtain ⟨t7, c7, d7, u7, e7, f7, hd7, he7, hc7, bt7, bc7⟩ :=
    mulCol_spec (c := c6) (d := d6) (pc := q7) (pd := q17) (by omega) (by omega)
  have bd7 : d7 < 2 ^ 32 := by omega
  simp only [f7] at hr
  clear f7
  obtain ⟨t8, c8, d8, u8, e8, f8, hd8, he8, hc8, bt8, bc8⟩ :=
    mulCol_spec (c := c7) (d := d7) (pc := q8) (pd := q18) (by omega) (by omega)
  have bd8 : d8 < 2 ^ 27 := by omega
  simp only [f8] at hr
  clear f8
  obtain ⟨x, y, r9, z, r0, w, r1, hE, hx, hy, hz, hw, b9', b0', b1', bw⟩ := mulEnd_spec bc8 bd8 bt0 bt1 bt2 m9
  simp only [hE] at hr
  subst hr
  constructor
  · have g : ∀ {t}, t < 2 ^ 26 → t ≤ 2 * 1 * (2 ^ 26 - 1) := fun h => by omega
    exact ⟨g b0', g b1', by simp only; clear * - bw bt2; omega, g bt3, g bt4, g bt5, g bt6, g bt7, g bt8,
      by simp only; clear * - b9'; omega⟩
  · exact mul_combine v9 hd0 he0 hc0 hd1 he1 hc1 hd2 he2 hc2 hd3 he3 hc3 hd4 he4 hc4 hd5 he5 hc5 hd6 he6 hc6 hd7 he7 hc7 hd8 he8 hc8 hx hy hz hw

theorem prod_le {a b x y : ℕ} (ha : a ≤ x) (hb : b ≤ y) : a * b ≤ x * y := Nat.mul_le_mul ha hb

theorem mulProds_le {a b : Fe10} (ha : a.Bits) (hb : b.Bits) :
    (∀ k < 17, mulProds a b k ≤ 9 * 2 ^ 60) ∧ mulProds a b 17 ≤ 2 ^ 57 ∧ mulProds a b 18 ≤ 2 ^ 52 := by
  obtain ⟨a0, a1, a2, a3, a4, a5, a6, a7, a8, a9⟩ := ha
  obtain ⟨b0, b1, b2, b3, b4, b5, b6, b7, b8, b9⟩ := hb
  have g : ∀ k < 17, mulProds a b k ≤ 9 * 2 ^ 60 := by
    intro k hk
    interval_cases k
    · exact le_trans (prod_le a0 b0) (by norm_num)
    · exact le_trans (add_le_add (prod_le a0 b1) (prod_le a1 b0)) (by norm_num)
    · exact le_trans (add_le_add (add_le_add (prod_le a0 b2) (prod_le a1 b1)) (prod_le a2 b0)) (by norm_num)
    · exact le_trans (add_le_add (add_le_add (add_le_add (prod_le a0 b3) (prod_le a1 b2)) (prod_le a2 b1)) (prod_le a3 b0)) (by norm_num)
    · exact le_trans (add_le_add (add_le_add (add_le_add (add_le_add (prod_le a0 b4) (prod_le a1 b3)) (prod_le a2 b2)) (prod_le a3 b1)) (prod_le a4 b0)) (by norm_num)
    · exact le_trans (add_le_add (add_le_add (add_le_add (add_le_add (add_le_add (prod_le a0 b5) (prod_le a1 b4)) (prod_le a2 b3)) (prod_le a3 b2)) (prod_le a4 b1)) (prod_le a5 b0)) (by norm_num)
    · exact le_trans (add_le_add (add_le_add (add_le_add (add_le_add (add_le_add (add_le_add (prod_le a0 b6) (prod_le a1 b5)) (prod_le a2 b4)) (prod_le a3 b3)) (prod_le a4 b2)) (prod_le a5 b1)) (prod_le a6 b0)) (by norm_num)
    · exact le_trans (add_le_add (add_le_add (add_le_add (add_le_add (add_le_add (add_le_add (add_le_add (prod_le a0 b7) (prod_le a1 b6)) (prod_le a2 b5)) (prod_le a3 b4)) (prod_le a4 b3)) (prod_le a5 b2)) (prod_le a6 b1)) (prod_le a7 b0)) (by norm_num)
    · exact le_trans (add_le_add (add_le_add (add_le_add (add_le_add (add_le_add (add_le_add (add_le_add (add_le_add (prod_le a0 b8) (prod_le a1 b7)) (prod_le a2 b6)) (prod_le a3 b5)) (prod_le a4 b4)) (prod_le a5 b3)) (prod_le a6 b2)) (prod_le a7 b1)) (prod_le a8 b0)) (by norm_num)
    · exact le_trans (add_le_add (add_le_add (add_le_add (add_le_add (add_le_add (add_le_add (add_le_add (add_le_add (add_le_add (prod_le a0 b9) (prod_le a1 b8)) (prod_le a2 b7)) (prod_le a3 b6)) (prod_le a4 b5)) (prod_le a5 b4)) (prod_le a6 b3)) (prod_le a7 b2)) (prod_le a8 b1)) (prod_le a9 b0)) (by norm_num)
    · exact le_trans (add_le_add (add_le_add (add_le_add (add_le_add (add_le_add (add_le_add (add_le_add (add_le_add (prod_le a1 b9) (prod_le a2 b8)) (prod_le a3 b7)) (prod_le a4 b6)) (prod_le a5 b5)) (prod_le a6 b4)) (prod_le a7 b3)) (prod_le a8 b2)) (prod_le a9 b1)) (by norm_num)
    · exact le_trans (add_le_add (add_le_add (add_le_add (add_le_add (add_le_add (add_le_add (add_le_add (prod_le a2 b9) (prod_le a3 b8)) (prod_le a4 b7)) (prod_le a5 b6)) (prod_le a6 b5)) (prod_le a7 b4)) (prod_le a8 b3)) (prod_le a9 b2)) (by norm_num)
    · exact le_trans (add_le_add (add_le_add (add_le_add (add_le_add (add_le_add (add_le_add (prod_le a3 b9) (prod_le a4 b8)) (prod_le a5 b7)) (prod_le a6 b6)) (prod_le a7 b5)) (prod_le a8 b4)) (prod_le a9 b3)) (by norm_num)
    · exact le_trans (add_le_add (add_le_add (add_le_add (add_le_add (add_le_add (prod_le a4 b9) (prod_le a5 b8)) (prod_le a6 b7)) (prod_le a7 b6)) (prod_le a8 b5)) (prod_le a9 b4)) (by norm_num)
    · exact le_trans (add_le_add (add_le_add (add_le_add (add_le_add (prod_le a5 b9) (prod_le a6 b8)) (prod_le a7 b7)) (prod_le a8 b6)) (prod_le a9 b5)) (by norm_num)
    · exact le_trans (add_le_add (add_le_add (add_le_add (prod_le a6 b9) (prod_le a7 b8)) (prod_le a8 b7)) (prod_le a9 b6)) (by norm_num)
    · exact le_trans (add_le_add (add_le_add (prod_le a7 b9) (prod_le a8 b8)) (prod_le a9 b7)) (by norm_num)
  exact ⟨g, le_trans (add_le_add (prod_le a8 b9) (prod_le a9 b8)) (by norm_num), le_trans (prod_le a9 b9) (by norm_num)⟩

set_option exponentiation.threshold 500 in
theorem mul_spec {a b : Fe10} (ha : a.Bits) (hb : b.Bits) :
    (mul a b).Mag 1 ∧ (((mul a b).nat : ℕ) : Fp) = ((a.nat : ℕ) : Fp) * ((b.nat : ℕ) : Fp) := by
  obtain ⟨h, h17, h18⟩ := mulProds_le ha hb
  obtain ⟨h1, h2⟩ := mulCols_spec h h17 h18
  refine ⟨h1, ?_⟩
  unfold mul
  rw [h2, ← Nat.cast_mul]
  congr 1
  clear h h17 h18 h1 h2 ha hb
  simp only [mulProds, nat]
  obtain ⟨a0, a1, a2, a3, a4, a5, a6, a7, a8, a9⟩ := a
  obtain ⟨b0, b1, b2, b3, b4, b5, b6, b7, b8, b9⟩ := b
  simp only
  ring

theorem dbl {a : ℕ} (h : a ≤ 2 ^ 30) : u32 (a * 2) = a * 2 := Nat.mod_eq_of_lt (by omega)

theorem sqr_eq_mul {a : Fe10} (ha : a.Bits) : sqr a = mul a a := by
  obtain ⟨h0, h1, h2, h3, h4, h5, h6, h7, h8, h9⟩ := ha
  unfold sqr mul
  congr 1
  funext k
  have d0 := dbl h0
  have d1 := dbl h1
  have d2 := dbl h2
  have d3 := dbl h3
  have d4 := dbl h4
  have d5 := dbl h5
  have d6 := dbl h6
  have d7 := dbl h7
  have d8 := dbl h8
  unfold sqrProds mulProds
  split <;> simp only [d0, d1, d2, d3, d4, d5, d6, d7, d8] <;> ring

end Model.Fe10
end Secp
