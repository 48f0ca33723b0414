import Verif.Proof.Field10x26Ops

/-!
# Helper lemmas: every field element that the field operations can build can be normalized

With magnitude 32 the bounds of the documentation do not exclude that the first pass of a normalization wraps
around; the elements that the operations can build satisfy the two stronger bounds of `Tame`.
-/

namespace Secp.Model.Fe10

/-- The invariant: `n0 + (n9 / 2^22) * 977` and `n0 + n1 * 2^26 + (n9 / 2^22) * (2^32 + 977)` stay below
`2m * 2^26` and `2m * 2^52` (as rational numbers); all limbs are zero for `m = 0`. -/
structure Tame (a : Fe10) (m : ℕ) : Prop where
  mag : a.Mag m
  v0 : m ≠ 0 → 2 ^ 22 * a.n0 + 977 * a.n9 < 2 * m * 2 ^ 48
  v1 : m ≠ 0 → 2 ^ 22 * (a.n0 + a.n1 * 2 ^ 26) + (2 ^ 32 + 977) * a.n9 < 2 * m * 2 ^ 74

theorem Tame.safe {a : Fe10} {m : ℕ} (h : a.Tame m) (hm : m ≤ 32) : a.Safe := by
  by_cases h31 : m ≤ 31
  · exact (h.mag.mono h31).safe
  have hm : m = 32 := by omega
  subst hm
  obtain ⟨h1, h2, h3⟩ := h
  have h2 := h2 (by norm_num)
  have h3 := h3 (by norm_num)
  refine ⟨h1, ?_, ?_⟩
  · clear * - h2
    omega
  · clear * - h3
    omega

theorem Tame.of_low {a : Fe10} (h : a.Low) (h9 : a.n9 < 2 ^ 22 + 63) : a.Tame 1 := by
  obtain ⟨h0, h1, -⟩ := id h
  refine ⟨Passed.mag ⟨h, h9⟩, fun _ => ?_, fun _ => ?_⟩
  · clear * - h0 h9
    omega
  · clear * - h0 h1 h9
    omega

theorem Tame.of_norm {a : Fe10} (h : a.Norm) : a.Tame 1 := .of_low h.low (by have := h.n9; omega)

theorem mulEnd_low (c d t0 t1 t2 t9 : ℕ) : (mulEnd c d t0 t1 t2 t9).1 < 2 ^ 26 ∧
    (mulEnd c d t0 t1 t2 t9).2.1 < 2 ^ 26 ∧ (mulEnd c d t0 t1 t2 t9).2.2.2 < 2 ^ 22 := by
  unfold mulEnd
  simp only [land_m26, show m26 >>> 4 = m22 from rfl, land_m22]
  exact ⟨Nat.mod_lt _ (by norm_num), Nat.mod_lt _ (by norm_num), Nat.mod_lt _ (by norm_num)⟩

theorem mulCols_low (q : ℕ → ℕ) : (mulCols q).n0 < 2 ^ 26 ∧ (mulCols q).n1 < 2 ^ 26 ∧ (mulCols q).n9 < 2 ^ 22 := by
  unfold mulCols
  simp only
  obtain ⟨t0, c0, d0⟩ := mulCol 0 (u64 (q 9) >>> 26) (q 0) (q 10)
  obtain ⟨t1, c1, d1⟩ := mulCol c0 d0 (q 1) (q 11)
  obtain ⟨t2, c2, d2⟩ := mulCol c1 d1 (q 2) (q 12)
  obtain ⟨t3, c3, d3⟩ := mulCol c2 d2 (q 3) (q 13)
  obtain ⟨t4, c4, d4⟩ := mulCol c3 d3 (q 4) (q 14)
  obtain ⟨t5, c5, d5⟩ := mulCol c4 d4 (q 5) (q 15)
  obtain ⟨t6, c6, d6⟩ := mulCol c5 d5 (q 6) (q 16)
  obtain ⟨t7, c7, d7⟩ := mulCol c6 d6 (q 7) (q 17)
  obtain ⟨t8, c8, d8⟩ := mulCol c7 d7 (q 8) (q 18)
  have h := mulEnd_low c8 d8 t0 t1 t2 (u64 (q 9) &&& m26)
  revert h
  obtain ⟨r0, r1, r2, r9⟩ := mulEnd c8 d8 t0 t1 t2 (u64 (q 9) &&& m26)
  exact id

theorem Tame.mul {a b : Fe10} (ha : a.Mag 8) (hb : b.Mag 8) : (mul a b).Tame 1 := by
  obtain ⟨h0, h1, h9⟩ := mulCols_low (mulProds a b)
  refine ⟨(mul_spec ha.bits hb.bits).1, fun _ => ?_, fun _ => ?_⟩
  · clear * - h0 h9
    unfold Fe10.mul
    omega
  · unfold Fe10.mul
    omega

theorem Tame.pos {a : Fe10} {m : ℕ} (h : a.Tame m) :
    2 ^ 22 * a.n0 + 977 * a.n9 ≤ 2 * m * 2 ^ 48 ∧
    2 ^ 22 * (a.n0 + a.n1 * 2 ^ 26) + (2 ^ 32 + 977) * a.n9 ≤ 2 * m * 2 ^ 74 := by
  rcases Nat.eq_zero_or_pos m with rfl | hm
  · obtain ⟨⟨h0, h1, -, -, -, -, -, -, -, h9⟩, -, -⟩ := h
    omega
  · exact ⟨(h.v0 (by omega)).le, (h.v1 (by omega)).le⟩

theorem Tame.add {a b : Fe10} {m k : ℕ} (ha : a.Tame m) (hb : b.Tame k) (hm : m + k ≤ 32) :
    (add a b).Tame (m + k) := by
  obtain ⟨ha0, ha1, -, -, -, -, -, -, -, ha9⟩ := ha.mag
  obtain ⟨hb0, hb1, -, -, -, -, -, -, -, hb9⟩ := hb.mag
  have e0 : (Fe10.add a b).n0 = a.n0 + b.n0 := Nat.mod_eq_of_lt (by clear * - ha0 hb0 hm; omega)
  have e1 : (Fe10.add a b).n1 = a.n1 + b.n1 := Nat.mod_eq_of_lt (by clear * - ha1 hb1 hm; omega)
  have e9 : (Fe10.add a b).n9 = a.n9 + b.n9 := Nat.mod_eq_of_lt (by clear * - ha9 hb9 hm; omega)
  obtain ⟨pa, pa'⟩ := ha.pos
  obtain ⟨pb, pb'⟩ := hb.pos
  have va := ha.v0
  have va' := ha.v1
  have vb := hb.v0
  have vb' := hb.v1
  refine ⟨(add_spec hm ha.mag hb.mag).1, fun h => ?_, fun h => ?_⟩ <;> rw [e0, e9] <;> try rw [e1]
  · clear * - pa pb va vb h
    rcases Nat.eq_zero_or_pos m with rfl | hm
    · have := vb (by omega)
      omega
    · have := va (by omega)
      omega
  · clear * - pa' pb' va' vb' h
    rcases Nat.eq_zero_or_pos m with rfl | hm
    · have := vb' (by omega)
      omega
    · have := va' (by omega)
      omega

theorem Tame.mulInt {a : Fe10} {m k : ℕ} (ha : a.Tame m) (hm : m * k ≤ 32) : (a.mulInt k).Tame (m * k) := by
  obtain ⟨h1, -⟩ := mulInt_spec hm ha.mag
  have hb : ∀ {x y : ℕ}, x ≤ 2 * m * y → x * k ≤ 2 * (m * k) * y := by
    intro x y h
    calc x * k ≤ 2 * m * y * k := Nat.mul_le_mul_right _ h
      _ = _ := by ring
  have b0 := hb ha.mag.n0
  have b1 := hb ha.mag.n1
  have b9 := hb ha.mag.n9
  have e0 : (a.mulInt k).n0 = a.n0 * k := Nat.mod_eq_of_lt (by clear * - b0 hm; omega)
  have e1 : (a.mulInt k).n1 = a.n1 * k := Nat.mod_eq_of_lt (by clear * - b1 hm; omega)
  have e9 : (a.mulInt k).n9 = a.n9 * k := Nat.mod_eq_of_lt (by clear * - b9 hm; omega)
  refine ⟨h1, fun h => ?_, fun h => ?_⟩ <;> rw [e0, e9] <;> try rw [e1]
  · have hk : 0 < k := Nat.pos_of_ne_zero (right_ne_zero_of_mul h)
    have := Nat.mul_lt_mul_of_pos_right (ha.v0 (left_ne_zero_of_mul h)) hk
    calc _ = (2 ^ 22 * a.n0 + 977 * a.n9) * k := by ring
      _ < _ := this
      _ = _ := by ring
  · have hk : 0 < k := Nat.pos_of_ne_zero (right_ne_zero_of_mul h)
    have := Nat.mul_lt_mul_of_pos_right (ha.v1 (left_ne_zero_of_mul h)) hk
    calc _ = (2 ^ 22 * (a.n0 + a.n1 * 2 ^ 26) + (2 ^ 32 + 977) * a.n9) * k := by ring
      _ < _ := this
      _ = _ := by ring

theorem Tame.addInt {a : Fe10} {m k : ℕ} (ha : a.Tame m) (hm : m + 1 ≤ 32) (hk : k ≤ 0x7FFF) :
    (a.addInt k).Tame (m + 1) := by
  obtain ⟨h1, -⟩ := addInt_spec (by omega) hk ha.mag
  have b0 := ha.mag.n0
  have e0 : (a.addInt k).n0 = a.n0 + k := Nat.mod_eq_of_lt (by clear * - b0 hm hk; omega)
  have e1 : (a.addInt k).n1 = a.n1 := rfl
  have e9 : (a.addInt k).n9 = a.n9 := rfl
  obtain ⟨pa, pa'⟩ := ha.pos
  refine ⟨h1, fun h => ?_, fun h => ?_⟩ <;> rw [e0, e9] <;> try rw [e1]
  · clear * - pa hk
    omega
  · clear * - pa' hk
    omega

theorem Tame.negate {a : Fe10} {m : ℕ} (ha : a.Mag m) (hm : m ≤ 31) : (a.negate m).Tame (m + 1) := by
  obtain ⟨h0, h1, -, -, -, -, -, -, -, h9⟩ := id ha
  have e0 : (a.negate m).n0 = 0x3FFFC2F * 2 * (m + 1) - a.n0 := by
    show sub32 (u32 _) _ = _
    rw [show u32 (0x3FFFC2F * 2 * (m + 1)) = _ from Nat.mod_eq_of_lt (by clear * - hm; omega)]
    exact sub32_eq (by clear * - h0 hm; omega) (by clear * - hm; omega)
  have e1 : (a.negate m).n1 = 0x3FFFFBF * 2 * (m + 1) - a.n1 := by
    show sub32 (u32 _) _ = _
    rw [show u32 (0x3FFFFBF * 2 * (m + 1)) = _ from Nat.mod_eq_of_lt (by clear * - hm; omega)]
    exact sub32_eq (by clear * - h1 hm; omega) (by clear * - hm; omega)
  have e9 : (a.negate m).n9 = 0x03FFFFF * 2 * (m + 1) - a.n9 := by
    show sub32 (u32 _) _ = _
    rw [show u32 (0x03FFFFF * 2 * (m + 1)) = _ from Nat.mod_eq_of_lt (by clear * - hm; omega)]
    exact sub32_eq (by clear * - h9 hm; omega) (by clear * - hm; omega)
  refine ⟨(negate_spec hm ha).1, fun h => ?_, fun h => ?_⟩ <;> rw [e0, e9] <;> try rw [e1]
  · clear * -
    omega
  · clear * -
    omega

theorem Tame.half {a : Fe10} {m : ℕ} (ha : a.Tame m) (hm : m ≤ 31) : a.half.Tame (m / 2 + 1) := by
  obtain ⟨pa, pa'⟩ := ha.pos
  have hmag := (half_spec hm ha.mag).1
  obtain ⟨h0, h1, h2, -, -, -, -, -, -, h9⟩ := ha.mag
  have hmask : ∃ x, x ≤ 1 ∧ x = a.n0 % 2 ∧ sub32 0 (a.n0 &&& 1) >>> 6 = x * (2 ^ 26 - 1) ∧
      0x3FFFC2F &&& (x * (2 ^ 26 - 1)) = x * 0x3FFFC2F ∧ 0x3FFFFBF &&& (x * (2 ^ 26 - 1)) = x * 0x3FFFFBF ∧
      (x * (2 ^ 26 - 1)) >>> 4 = x * (2 ^ 22 - 1) := by
    rw [land_one']
    refine ⟨a.n0 % 2, by omega, rfl, ?_, ?_, ?_, ?_⟩ <;>
      rcases Nat.mod_two_eq_zero_or_one a.n0 with e | e <;> rw [e] <;> decide
  obtain ⟨x, hx, hx', e1, e2, e3, e4⟩ := hmask
  have f0 : u32 (a.n0 + x * 0x3FFFC2F) = a.n0 + x * 0x3FFFC2F := Nat.mod_eq_of_lt (by clear * - hx h0 hm; omega)
  have f1 : u32 (a.n1 + x * 0x3FFFFBF) = a.n1 + x * 0x3FFFFBF := Nat.mod_eq_of_lt (by clear * - hx h1 hm; omega)
  have f9 : u32 (a.n9 + x * (2 ^ 22 - 1)) = a.n9 + x * (2 ^ 22 - 1) := Nat.mod_eq_of_lt (by clear * - hx h9 hm; omega)
  obtain ⟨y, hy, g0⟩ : ∃ y, y = (a.n1 + x * 0x3FFFFBF) % 2 ∧ a.half.n0 = (a.n0 + x * 0x3FFFC2F) / 2 + y * 2 ^ 25 := by
    refine ⟨_, rfl, ?_⟩
    unfold Fe10.half
    simp only [e1, e2, e3, f0, f1]
    simp only [land_one', Nat.shiftRight_eq_div_pow, Nat.shiftLeft_eq]
    apply Nat.mod_eq_of_lt
    clear * - h0 hx hm
    omega
  obtain ⟨z, hz, g1⟩ : ∃ z, z ≤ 1 ∧ a.half.n1 = (a.n1 + x * 0x3FFFFBF) / 2 + z * 2 ^ 25 := by
    refine ⟨u32 (a.n2 + x * (2 ^ 26 - 1)) % 2, by omega, ?_⟩
    unfold Fe10.half
    simp only [e1, e3, f1]
    simp only [land_one', Nat.shiftRight_eq_div_pow, Nat.shiftLeft_eq]
    apply Nat.mod_eq_of_lt
    clear * - h1 hx hm
    omega
  have g9 : a.half.n9 = (a.n9 + x * (2 ^ 22 - 1)) / 2 := by
    unfold Fe10.half
    simp only [e1, e4, f9]
    rw [Nat.shiftRight_eq_div_pow]
  refine ⟨hmag, fun _ => ?_, fun _ => ?_⟩ <;> rw [g0, g9] <;> try rw [g1]
  · rcases Nat.eq_zero_or_pos m with rfl | h
    · clear * - h0 h9 hx hy
      omega
    · have v := ha.v0 (by omega)
      clear * - v hx hy
      omega
  · rcases Nat.eq_zero_or_pos m with rfl | h
    · clear * - h0 h1 h9 hx hy hz
      omega
    · have v := ha.v1 (by omega)
      clear * - v hx hx' hy hz
      omega

theorem Tame.mono {a : Fe10} {m k : ℕ} (h : a.Tame m) (hk : m ≤ k) : a.Tame k := by
  refine ⟨h.mag.mono hk, fun hn => ?_, fun hn => ?_⟩
  · rcases Nat.eq_zero_or_pos m with rfl | hm
    · have := h.pos.1
      clear * - this hn
      omega
    · exact lt_of_lt_of_le (h.v0 (by omega)) (by gcongr)
  · rcases Nat.eq_zero_or_pos m with rfl | hm
    · have := h.pos.2
      clear * - this hn
      omega
    · exact lt_of_lt_of_le (h.v1 (by omega)) (by gcongr)

theorem Built.tame {a : Fe10} {m : ℕ} (h : Built a m) : m ≤ 32 ∧ a.Tame m := by
  induction h with
  | norm h => exact ⟨by norm_num, .of_norm h⟩
  | zero => exact ⟨by norm_num, by constructor <;> decide, by simp, by simp⟩
  | setInt hk => exact ⟨by norm_num, .of_norm (setInt_spec hk).1⟩
  | setB32Mod hb =>
    obtain ⟨h1, h2, -⟩ := setB32Mod_spec _ hb
    exact ⟨by norm_num, .of_low h1 (by omega)⟩
  | normalizeWeak _ hm ih =>
    obtain ⟨⟨h1, h2⟩, -⟩ := pass1_spec (ih.2.safe hm)
    exact ⟨by norm_num, .of_low h1 h2⟩
  | add _ _ hm iha ihb => exact ⟨hm, iha.2.add ihb.2 hm⟩
  | addInt _ hm hk ih => exact ⟨hm, ih.2.addInt hm hk⟩
  | mulInt _ hm ih => exact ⟨hm, ih.2.mulInt hm⟩
  | negate _ hm hk ih => exact ⟨by omega, .negate (ih.2.mag.mono hm) hk⟩
  | half _ hm ih => exact ⟨by omega, ih.2.half (by omega)⟩
  | mul _ _ hm hk iha ihb => exact ⟨by norm_num, .mul (iha.2.mag.mono hm) (ihb.2.mag.mono hk)⟩
  | sqr _ hm ih =>
    refine ⟨by norm_num, ?_⟩
    rw [sqr_eq_mul (ih.2.mag.mono hm).bits]
    exact .mul (ih.2.mag.mono hm) (ih.2.mag.mono hm)
  | cmov flag _ _ hm hk iha ihb =>
    refine ⟨by omega, ?_⟩
    rw [cmov_spec (iha.2.mag.mono hm) (ihb.2.mag.mono hk)]
    cases flag
    · exact iha.2.mono (le_max_left _ _)
    · exact ihb.2.mono (le_max_right _ _)
  | fromStorage h0 h1 h2 h3 h4 h5 h6 h7 =>
    obtain ⟨-, h1, h2⟩ := fromStorage_spec ⟨h0, h1, h2, h3, h4, h5, h6, h7⟩
    exact ⟨by norm_num, .of_low h1 (by omega)⟩

end Secp.Model.Fe10
