import Verif.Model.EcmultConst
import Verif.Proof.Strauss
import Verif.Proof.Sqrt

/-! # The constant-time multiplication is correct -/

namespace Secp
open WeierstrassCurve Model FeOps Finset

local notation "hb7" => neg7_not_cube

theorem constTableGetLoop_eq (pre : List (Ge Fp)) (index : ℕ) (m : ℕ) :
    constTableGetLoop pre index m =
      if index ≤ m then ⟨(pre.getD index geGarbage).x, (pre.getD index geGarbage).y, false⟩
      else ⟨(pre.getD 0 geGarbage).x, (pre.getD 0 geGarbage).y, false⟩ := by
  induction m with
  | zero =>
    unfold constTableGetLoop
    by_cases h : index ≤ 0
    · rw [if_pos h]
      have : index = 0 := by omega
      subst this; rfl
    · rw [if_neg h]
  | succ m ih =>
    unfold constTableGetLoop
    simp only [ih, cmov]
    by_cases h : m + 1 = index
    · subst h
      simp
    · have hb : (m + 1 == index) = false := by simpa using h
      simp only [hb, Bool.false_eq_true, if_false]
      by_cases h' : index ≤ m
      · rw [if_pos h', if_pos (by omega)]
      · rw [if_neg h', if_neg (by omega)]

/-- Value of the looked up multiple. -/
theorem constTableGetGe_rep {b : Fp} {pre : List (Ge Fp)} {A : (curve b).Point}
    (hpre : ∀ m, m < 16 → (pre.getD m geGarbage).infinity = false ∧
      GeRep b (pre.getD m geGarbage) ((2 * m + 1) • A)) {k : ℕ} (hk : k < 32) :
    GeRep b (constTableGetGe pre k) ((2 * (k : ℤ) - 31) • A) ∧
      (constTableGetGe pre k).infinity = false := by
  refine ⟨?_, rfl⟩
  have hdec : ∀ k : ℕ, k < 32 →
      (((2 ^ 32 - ((k >>> (constGroupSize - 1)) ^^^ 1)) % 2 ^ 32) ^^^ k) &&&
        (2 ^ (constGroupSize - 1) - 1) = (if k < 16 then 15 - k else k - 16) ∧
      (((k >>> (constGroupSize - 1)) ^^^ 1 != 0) = decide (k < 16)) := by decide +kernel
  obtain ⟨d1, d2⟩ := hdec k hk
  unfold constTableGetGe
  simp only
  rw [d1, d2, constTableGetLoop_eq]
  have hle : (if k < 16 then 15 - k else k - 16) ≤ constTableSize - 1 := by
    have : constTableSize - 1 = 15 := by decide
    rw [this]; split <;> omega
  rw [if_pos hle]
  simp only [cmov, negate]
  by_cases h : k < 16
  · simp only [h, if_true, decide_true]
    obtain ⟨h1, h2⟩ := hpre (15 - k) (by omega)
    have := geNeg_rep h2
    rw [← natCast_zsmul, ← neg_smul] at this
    simp only [geNeg, normalizeWeak, negate, h1] at this
    convert this using 2
    push_cast [show k ≤ 15 by omega]; ring
  · simp only [h, if_false, decide_false, Bool.false_eq_true]
    obtain ⟨h1, h2⟩ := hpre (k - 16) (by omega)
    rw [← natCast_zsmul] at h2
    generalize pre.getD (k - 16) geGarbage = e at *
    obtain ⟨x, y, i⟩ := e
    simp only at h1
    subst h1
    convert h2 using 2
    push_cast [show 16 ≤ k by omega]; ring

theorem gejDoubleN_rep {b : Fp} (hb : NoTwoTorsion b) (k : ℕ) : ∀ {r : Gej Fp} {R : (curve b).Point},
    GejRep b r R → GejRep b (gejDoubleN r k) (2 ^ k • R) := by
  induction k with
  | zero => intro r R h; simpa [gejDoubleN] using h
  | succ k ih =>
    intro r R h
    have := ih (gejDouble_rep hb h)
    rw [← two_nsmul, ← mul_smul, ← pow_succ] at this
    exact this

/-- Σ over the groups `< g` of `32^i (2·bits_i - 31)`. -/
theorem group_sum (v g : ℕ) :
    ∑ i ∈ range g, (32 : ℤ) ^ i * (2 * ((v / 2 ^ (i * 5) % 2 ^ 5 : ℕ) : ℤ) - 31) =
      2 * ((v % 2 ^ (g * 5) : ℕ) : ℤ) + 1 - 2 ^ (g * 5) := by
  induction g with
  | zero => simp [Nat.mod_one]
  | succ g ih =>
    rw [sum_range_succ, ih]
    have h1 : v % 2 ^ ((g + 1) * 5) = v % 2 ^ (g * 5) + 2 ^ (g * 5) * (v / 2 ^ (g * 5) % 2 ^ 5) := by
      rw [show (g + 1) * 5 = g * 5 + 5 by ring, pow_add, Nat.mod_mul]
    have h2 : (2 : ℤ) ^ (g * 5) = 32 ^ g := by rw [mul_comm, pow_mul]; norm_num
    have h3 : (2 : ℤ) ^ ((g + 1) * 5) = 32 ^ g * 32 := by
      rw [mul_comm, pow_mul, pow_succ]; norm_num
    rw [h1]
    push_cast
    rw [h3, h2]
    ring

/-- Digit `i` of the signed-digit form of `v`. -/
def sdig (v : Fn) (i : ℕ) : ℤ := 2 * ((v.val / 2 ^ (i * 5) % 2 ^ 5 : ℕ) : ℤ) - 31

theorem constLoop_rep {b : Fp} (hb : NoTwoTorsion b) {pre preLam : List (Ge Fp)}
    {A B : (curve b).Point}
    (hpre : ∀ m, m < 16 → (pre.getD m geGarbage).infinity = false ∧
      GeRep b (pre.getD m geGarbage) ((2 * m + 1) • A))
    (hpreL : ∀ m, m < 16 → (preLam.getD m geGarbage).infinity = false ∧
      GeRep b (preLam.getD m geGarbage) ((2 * m + 1) • B)) (v1 v2 : Fn) (g : ℕ) (hg : g ≤ 26) :
    ∀ {r : Gej Fp} {R : (curve b).Point}, (g = 26 → R = 0) → (g ≠ 26 → GejRep b r R) →
    GejRep b (constLoop pre preLam v1 v2 g r) (32 ^ g • R +
      (∑ i ∈ range g, (32 : ℤ) ^ i * sdig v1 i) • A + (∑ i ∈ range g, (32 : ℤ) ^ i * sdig v2 i) • B) := by
  induction g with
  | zero => intro r R _ h; simpa [constLoop] using h (by norm_num)
  | succ g ih =>
    intro r R h0 h
    have k1 : scGetBits v1 (g * constGroupSize) constGroupSize < 32 := Nat.mod_lt _ (by norm_num)
    have k2 : scGetBits v2 (g * constGroupSize) constGroupSize < 32 := Nat.mod_lt _ (by norm_num)
    obtain ⟨t1, i1⟩ := constTableGetGe_rep hpre k1
    obtain ⟨t2, i2⟩ := constTableGetGe_rep hpreL k2
    unfold constLoop
    simp only
    generalize hs1 : (2 * ((scGetBits v1 (g * constGroupSize) constGroupSize : ℕ) : ℤ) - 31) = s1 at t1
    generalize hs2 : (2 * ((scGetBits v2 (g * constGroupSize) constGroupSize : ℕ) : ℤ) - 31) = s2 at t2
    have e1 : sdig v1 g = s1 := hs1
    have e2 : sdig v2 g = s2 := hs2
    have step : GejRep b (if g = constGroups - 1 then
          gejSetGe (constTableGetGe pre (scGetBits v1 (g * constGroupSize) constGroupSize))
        else gejAddGe (gejDoubleN r constGroupSize)
          (constTableGetGe pre (scGetBits v1 (g * constGroupSize) constGroupSize)))
        ((32 : ℕ) • R + s1 • A) := by
      by_cases hgr : g = constGroups - 1
      · rw [if_pos hgr]
        have hg25 : g = 25 := hgr
        rw [h0 (by omega), nsmul_zero, zero_add]
        exact gejSetGe_rep t1
      · rw [if_neg hgr]
        have hg25 : g ≠ 25 := hgr
        have hr : GejRep b r R := h (by omega)
        exact gejAddGe_rep hb (gejDoubleN_rep hb 5 hr) t1 i1
    have step2 := gejAddGe_rep hb step t2 i2
    have := ih (by omega) (fun h => by omega) (fun _ => step2)
    convert this using 1
    rw [sum_range_succ, sum_range_succ, e1, e2]
    simp only [pow_succ, mul_smul, smul_add, add_smul]
    module

theorem half_mul_two (a : Fn) : 2 * scHalf a = a := by
  have hn : n % 2 = 1 := by decide +kernel
  have ha : ((a.val : ℕ) : Fn) = a := by rw [ZMod.natCast_val, ZMod.cast_id', id]
  unfold scHalf
  split
  · rename_i h
    rw [← Nat.cast_ofNat (R := Fn), ← Nat.cast_mul, show 2 * (a.val / 2) = a.val by omega, ha]
  · rename_i h
    rw [← Nat.cast_ofNat (R := Fn), ← Nat.cast_mul, show 2 * ((a.val + n) / 2) = a.val + n by omega,
      Nat.cast_add, ha, cast_n, add_zero]

/-- Adding the offset `2^128` to a small scalar gives a number below `2^129`. -/
theorem small_add_offset {s : Fn} (h : Small s) : (s + scConst constSOffset).val < 2 ^ 129 := by
  have hn : 2 ^ 129 < n := by decide +kernel
  have ho : constSOffset = 2 ^ 128 := by decide +kernel
  rw [scConst, ho]
  rcases h with h | h
  · have e : s = ((s.val : ℕ) : Fn) := by rw [ZMod.natCast_val, ZMod.cast_id', id]
    rw [e, ← Nat.cast_add, ZMod.val_natCast_of_lt (by omega)]
    omega
  · have e : (((-s).val : ℕ) : Fn) = -s := by rw [ZMod.natCast_val, ZMod.cast_id', id]
    have e2 : s + ((2 ^ 128 : ℕ) : Fn) = ((2 ^ 128 - (-s).val : ℕ) : Fn) := by
      rw [Nat.cast_sub h.le, e]; ring
    rw [e2, ZMod.val_natCast_of_lt (by omega)]
    omega

theorem constK_eq : scConst constK + (2 * scConst constSOffset + 1) * (1 + lam) =
    2 ^ 130 * (1 + lam) := by
  have := fn_natCast_eq (a := constK + (2 * constSOffset + 1) * (1 + constLambda))
    (b := 2 ^ 130 * (1 + constLambda)) (by decide +kernel)
  simp only [Nat.cast_add, Nat.cast_mul, Nat.cast_pow, Nat.cast_ofNat, Nat.cast_one] at this
  exact this

theorem sdig_sum {v : Fn} (h : v.val < 2 ^ 129) :
    ∑ i ∈ range 26, (32 : ℤ) ^ i * sdig v i = 2 * (v.val : ℤ) + 1 - 2 ^ 130 := by
  unfold sdig
  rw [group_sum, Nat.mod_eq_of_lt (lt_trans h (by norm_num))]

theorem geMulLambda_eq (g : Ge Fp) :
    geMulLambda g = ⟨g.x * (constBeta : Fp), g.y, g.infinity⟩ := by
  unfold geMulLambda
  simp only [mul, feConst]

theorem geMulLambda_rep {w : Fp} (hw : w ≠ 0) {g : Ge Fp} {P : Pt} {k : ℕ}
    (hi : g.infinity = false) (hg : GeRep (7 * w ^ 6) g (k • iso hb7 hw P)) :
    (geMulLambda g).infinity = false ∧
      GeRep (7 * w ^ 6) (geMulLambda g) (k • iso hb7 hw (lam • P)) := by
  rw [geMulLambda_eq]
  refine ⟨by simp only; exact hi, ?_⟩
  rw [← map_nsmul (iso hb7 hw) k P] at hg
  rw [← map_nsmul (iso hb7 hw) k (lam • P)]
  have := endo_rep hw hg
  have e : lam • (k • P) = k • (lam • P) := by rw [← natCast_smul, ← natCast_smul, smul_comm]
  rw [e] at this
  exact this

/-- `secp256k1_ecmult_const` computes `q·P`, also when it is run on the isomorphic curve
`y² = x³ + 7u⁶` (which is how `secp256k1_ecmult_const_xonly` uses it). -/
theorem ecmultConst_iso_rep {u : Fp} (hu : u ≠ 0) {a : Ge Fp} {P : Pt}
    (ha : GeRep (7 * u ^ 6) a (iso hb7 hu P)) (q : Fn) :
    GejRep (7 * u ^ 6) (ecmultConst a q) (iso hb7 hu (q • P)) := by
  unfold ecmultConst
  cases hi : a.infinity
  swap
  · simp only [if_true]
    have : P = 0 := by rw [← iso_eq_zero hb7 hu]; exact ha.inf_iff.1 hi
    rw [this, smul_zero, map_zero]
    exact gejInfinity_rep _
  simp only [Bool.false_eq_true, if_false]
  have hP : P ≠ 0 := by
    rintro rfl
    rw [map_zero] at ha
    rw [ha.inf_iff.2 rfl] at hi; cases hi
  generalize hs : scHalf (q + scConst constK) = s
  have hs2 : 2 * s = q + scConst constK := by rw [← hs, half_mul_two]
  obtain ⟨s1, s2, s3⟩ := splitLambda_spec s
  have v1 := small_add_offset s2
  have v2 := small_add_offset s3
  generalize scSplitLambda s = sp at *
  have hb := iso_ntt hb7 hu
  obtain ⟨o1, o2, o3⟩ := oddMultiplesTable_spec hb (gejSetGe_rep ha) constTableSize (by decide)
      (fun j hj h0 => by
        rw [← map_nsmul, iso_eq_zero] at h0
        exact odd_smul_ne hP j (lt_trans hj (by decide)) h0)
  obtain ⟨p1, p2⟩ := tableSetGlobalz_spec o3
  unfold constOddMultiplesTableGlobalz
  simp only
  generalize oddMultiplesTable constTableSize (gejSetGe a) = t at *
  rw [o1] at p2
  have e16 : constTableSize = 16 := by decide
  rw [e16] at p2
  -- everything happens on the curve for `t.2 * u`
  have hw : t.2 * u ≠ 0 := mul_ne_zero o2 hu
  have hent : ∀ m, m < 16 → ((tableSetGlobalz t.1).getD m geGarbage).infinity = false ∧
      GeRep (7 * (t.2 * u) ^ 6) ((tableSetGlobalz t.1).getD m geGarbage)
        ((2 * m + 1) • iso hb7 hw P) := by
    intro m hm
    rw [← p2] at hm
    obtain ⟨q1, q2⟩ := p1 m hm
    rw [List.getD_eq_getElem?_getD, List.getElem?_eq_getElem hm, Option.getD_some]
    refine ⟨q1, ?_⟩
    rw [← map_nsmul, iso_rep_ge, q1]
    simp only at q2
    rw [← map_nsmul, iso_rep] at q2
    exact q2
  have hentL : ∀ m, m < 16 →
      (((tableSetGlobalz t.1).map geMulLambda).getD m geGarbage).infinity = false ∧
      GeRep (7 * (t.2 * u) ^ 6) (((tableSetGlobalz t.1).map geMulLambda).getD m geGarbage)
        ((2 * m + 1) • iso hb7 hw (lam • P)) := by
    intro m hm
    obtain ⟨q1, q2⟩ := hent m hm
    rw [← p2] at hm
    rw [List.getD_eq_getElem?_getD, List.getElem?_eq_getElem hm, Option.getD_some] at q1 q2
    rw [List.getD_eq_getElem?_getD, List.getElem?_map, List.getElem?_eq_getElem hm, Option.map_some,
      Option.getD_some]
    exact geMulLambda_rep hw q1 q2
  have hr := constLoop_rep (iso_ntt hb7 hw) hent hentL (sp.1 + scConst constSOffset)
    (sp.2 + scConst constSOffset) constGroups (by decide) (r := gejSetGe a) (R := 0)
    (fun _ => rfl) (fun h => absurd (by decide) h)
  have eg : constGroups = 26 := by decide
  rw [eg, sdig_sum v1, sdig_sum v2, nsmul_zero, zero_add, ← map_zsmul, ← map_zsmul, ← map_add,
    iso_rep] at hr
  rw [eg, iso_rep]
  have epq : q • P = (2 * ((sp.1 + scConst constSOffset).val : ℤ) + 1 - 2 ^ 130) • P +
      (2 * ((sp.2 + scConst constSOffset).val : ℤ) + 1 - 2 ^ 130) • lam • P := by
    rw [← int_smul, ← int_smul, ← mul_smul, ← add_smul]
    congr 1
    simp only [Int.cast_add, Int.cast_sub, Int.cast_mul, Int.cast_pow, Int.cast_ofNat, Int.cast_one,
      Int.cast_natCast]
    rw [ZMod.natCast_val, ZMod.cast_id', id, ZMod.natCast_val, ZMod.cast_id', id]
    have : q = 2 * s - scConst constK := by rw [hs2]; ring
    have hK := constK_eq
    rw [this, ← s1]
    generalize (2 : Fn) ^ 130 = X at *
    linear_combination -hK
  rw [epq]
  simp only [mul]
  rw [mul_assoc]
  exact hr

theorem ge_iso_one {a : Ge Fp} {P : Pt} (ha : GeRep 7 a P) :
    GeRep (7 * 1 ^ 6) a (iso hb7 one_ne_zero P) := by
  rw [iso_rep_ge]
  have := gejSetGe_rep ha
  simpa [gejSetGe, setInt] using this

/-- `secp256k1_ecmult_const` computes `q·P`. -/
theorem ecmultConst_rep {a : Ge Fp} {P : Pt} (ha : GeRep 7 a P) (q : Fn) :
    GejRep 7 (ecmultConst a q) (q • P) := by
  have := ecmultConst_iso_rep one_ne_zero (ge_iso_one ha) q
  rw [iso_rep, mul_one] at this
  exact this

end Secp
