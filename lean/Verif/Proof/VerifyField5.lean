import Verif.Proof.VerifyField5Mul

/-!
# Helper lemmas: the checks of a `VERIFY` build in the normalizations, the negation and the halving on five limbs
-/

namespace Secp
open Model Model.Verify
namespace Model.Fe5

/-- What the first pass of a normalization achieves for all limbs. -/
structure Masked (t : Fe5) : Prop where
  n0 : t.n0 < 2 ^ 52
  n1 : t.n1 < 2 ^ 52
  n2 : t.n2 < 2 ^ 52
  n3 : t.n3 < 2 ^ 52
  n4 : t.n4 < 2 ^ 48 + 2 ^ 12

theorem pass1_masked (r : Fe5) : r.pass1.Masked := by
  have k : ∀ x, x &&& m52 < 2 ^ 52 := fun x => by
    rw [land_m52]
    exact Nat.mod_lt _ (by norm_num)
  refine ⟨k _, k _, k _, k _, ?_⟩
  unfold pass1
  simp only [land_m48, Nat.shiftRight_eq_div_pow]
  generalize r.n3 + _ = y
  have h1 : u64 y < 2 ^ 64 := Nat.mod_lt _ (by norm_num)
  have h2 := Nat.mod_lt r.n4 (show 0 < 2 ^ 48 by norm_num)
  have h3 : u64 (r.n4 % 2 ^ 48 + u64 y / 2 ^ 52) ≤ r.n4 % 2 ^ 48 + u64 y / 2 ^ 52 := Nat.mod_le _ _
  omega

theorem pass1V_eq (r : Fe5) : r.pass1V = some r.pass1 := by
  have h := (pass1_masked r).n4
  unfold pass1V
  refine bind_step (check_true ?_) rfl
  rw [decide_eq_true_eq, Nat.shiftRight_eq_div_pow]
  omega

theorem needsReduce_masked {t : Fe5} (h : t.Masked) :
    t.needsReduce = if p ≤ t.nat then 1 else 0 := by
  obtain ⟨h0, h1, h2, h3, h4⟩ := h
  obtain ⟨a, b, c, d, e⟩ := t
  simp only at h0 h1 h2 h3 h4
  have hand : (b &&& c &&& d = m52) ↔ (b = 2 ^ 52 - 1 ∧ c = 2 ^ 52 - 1) ∧ d = 2 ^ 52 - 1 := by
    rw [show m52 = 2 ^ 52 - 1 from rfl,
      land_eq_ones (lt_of_le_of_lt Nat.and_le_left h1) h3, land_eq_ones h1 h2]
  unfold needsReduce
  simp only [Nat.shiftRight_eq_div_pow, hand]
  unfold nat p feP0 m48
  simp only
  by_cases hc : e < 2 ^ 48
  · have e1 : e / 2 ^ 48 = 0 := Nat.div_eq_of_lt hc
    rw [e1, Nat.zero_or]
    by_cases k4 : e = 281474976710655
    · rw [if_pos k4]
      by_cases k1 : (b = 2 ^ 52 - 1 ∧ c = 2 ^ 52 - 1) ∧ d = 2 ^ 52 - 1
      · rw [if_pos k1]
        by_cases k0 : a ≥ 4503595332402223
        · rw [if_pos k0, if_pos (by omega)]; rfl
        · rw [if_neg k0, if_neg (by omega)]; rfl
      · rw [if_neg k1, Nat.and_zero, Nat.zero_and, if_neg (by omega)]
    · rw [if_neg k4, Nat.zero_and, Nat.zero_and, if_neg (by omega)]
  · have e1 : e / 2 ^ 48 = 1 := by omega
    rw [e1, if_neg (show ¬ e = 281474976710655 by omega), Nat.zero_and, Nat.zero_and,
      if_pos (by omega), Nat.or_zero]


theorem pass2V_eq {t : Fe5} (h : t.Masked) {x : ℕ} (hx : x = if p ≤ t.nat then 1 else 0) :
    t.pass2V x x = some (t.pass2 x) := by
  unfold pass2V
  refine bind_step (check_true ?_) rfl
  rw [decide_eq_true_eq]
  obtain ⟨h0, h1, h2, h3, h4⟩ := h
  have hx' : x = 1 ∧ p ≤ t.nat ∨ x = 0 ∧ t.nat < p := by
    by_cases h : p ≤ t.nat
    · rw [if_pos h] at hx; exact .inl ⟨hx, h⟩
    · rw [if_neg h] at hx; exact .inr ⟨hx, by omega⟩
  clear hx
  obtain ⟨a, b, c, d, e⟩ := t
  simp only at h0 h1 h2 h3 h4
  have hx1 : x ≤ 1 := by omega
  unfold nat p at hx'
  simp only at hx'
  simp only [land_m52, Nat.shiftRight_eq_div_pow, u64, feC]
  have hc : x * 4294968273 % 2 ^ 64 = x * 4294968273 := Nat.mod_eq_of_lt (by omega)
  rw [hc]
  have e0 : (a + x * 4294968273) % 2 ^ 64 = a + x * 4294968273 := Nat.mod_eq_of_lt (by omega)
  rw [e0]
  have d0 := Nat.div_add_mod (a + x * 4294968273) (2 ^ 52)
  have m0 := Nat.mod_lt (a + x * 4294968273) (show 0 < 2 ^ 52 by norm_num)
  generalize hA : (a + x * 4294968273) / 2 ^ 52 = q0 at *
  generalize (a + x * 4294968273) % 2 ^ 52 = r0 at *
  have b0 : q0 ≤ 1 := by omega
  have e1 : (b + q0) % 2 ^ 64 = b + q0 := Nat.mod_eq_of_lt (by omega)
  rw [e1]
  have d1 := Nat.div_add_mod (b + q0) (2 ^ 52)
  have m1 := Nat.mod_lt (b + q0) (show 0 < 2 ^ 52 by norm_num)
  generalize (b + q0) / 2 ^ 52 = q1 at *
  generalize (b + q0) % 2 ^ 52 = r1 at *
  have b1 : q1 ≤ 1 := by omega
  have e2 : (c + q1) % 2 ^ 64 = c + q1 := Nat.mod_eq_of_lt (by omega)
  rw [e2]
  have d2 := Nat.div_add_mod (c + q1) (2 ^ 52)
  have m2 := Nat.mod_lt (c + q1) (show 0 < 2 ^ 52 by norm_num)
  generalize (c + q1) / 2 ^ 52 = q2 at *
  generalize (c + q1) % 2 ^ 52 = r2 at *
  have b2 : q2 ≤ 1 := by omega
  have e3 : (d + q2) % 2 ^ 64 = d + q2 := Nat.mod_eq_of_lt (by omega)
  rw [e3]
  have d3 := Nat.div_add_mod (d + q2) (2 ^ 52)
  have m3 := Nat.mod_lt (d + q2) (show 0 < 2 ^ 52 by norm_num)
  generalize (d + q2) / 2 ^ 52 = q3 at *
  generalize (d + q2) % 2 ^ 52 = r3 at *
  have b3 : q3 ≤ 1 := by omega
  have e4 : (e + q3) % 2 ^ 64 = e + q3 := Nat.mod_eq_of_lt (by omega)
  rw [e4]
  have d4 := Nat.div_add_mod (e + q3) (2 ^ 48)
  have m4 := Nat.mod_lt (e + q3) (show 0 < 2 ^ 48 by norm_num)
  generalize (e + q3) / 2 ^ 48 = q4 at *
  generalize (e + q3) % 2 ^ 48 = r4 at *
  have key : a + b * 2 ^ 52 + c * 2 ^ 104 + d * 2 ^ 156 + e * 2 ^ 208 + x * 4294968273 =
      r0 + r1 * 2 ^ 52 + r2 * 2 ^ 104 + r3 * 2 ^ 156 + r4 * 2 ^ 208 + q4 * 2 ^ 256 := by
    clear hx' hx1
    omega
  have hr : r0 + r1 * 2 ^ 52 + r2 * 2 ^ 104 + r3 * 2 ^ 156 + r4 * 2 ^ 208 < 2 ^ 256 := by
    clear key hx' d0 d1 d2 d3 d4
    omega
  have hN : a + b * 2 ^ 52 + c * 2 ^ 104 + d * 2 ^ 156 + e * 2 ^ 208 < 2 ^ 256 + 2 ^ 221 := by
    clear key hx' d0 d1 d2 d3 d4
    omega
  clear d0 d1 d2 d3 d4 m0 m1 m2 m3 m4 h0 h1 h2 h3 h4 b0 b1 b2 b3 hA e0 e1 e2 e3 e4 hc
  generalize r0 + r1 * 2 ^ 52 + r2 * 2 ^ 104 + r3 * 2 ^ 156 + r4 * 2 ^ 208 = R at *
  generalize a + b * 2 ^ 52 + c * 2 ^ 104 + d * 2 ^ 156 + e * 2 ^ 208 = N at *
  rcases hx' with ⟨rfl, h⟩ | ⟨rfl, h⟩ <;> omega

theorem normalizeV_eq (r : Fe5) : r.normalizeV = some r.normalize :=
  bind_step (pass1V_eq r) (pass2V_eq (pass1_masked r) (needsReduce_masked (pass1_masked r)))

theorem normalizeVarV_eq (r : Fe5) : r.normalizeVarV = some r.normalizeVar := by
  refine bind_step (pass1V_eq r) ?_
  unfold normalizeVar
  have e := needsReduce_masked (pass1_masked r)
  have h := pass2V_eq (pass1_masked r) e
  by_cases hp : p ≤ r.pass1.nat
  · rw [if_pos hp] at e
    rw [e] at h
    simp only [e]
    exact h
  · rw [if_neg hp] at e
    simp only [e]
    rfl

theorem normalizesToZeroV_eq (r : Fe5) : r.normalizesToZeroV = some r.normalizesToZero := by
  have h := (pass1_masked r).n4
  unfold normalizesToZeroV
  refine bind_step (check_true ?_) rfl
  rw [decide_eq_true_eq, Nat.shiftRight_eq_div_pow]
  omega

theorem normalizesToZeroVarV_eq (r : Fe5) : r.normalizesToZeroVarV = some r.normalizesToZeroVar := by
  have h := (pass1_masked r).n4
  unfold normalizesToZeroVarV normalizesToZeroVar
  simp only
  split
  · rfl
  · refine bind_step (check_true ?_) rfl
    rw [decide_eq_true_eq]
    show r.pass1.n4 >>> 49 = 0
    rw [Nat.shiftRight_eq_div_pow]
    omega

theorem negateV_eq {m : ℕ} (hm : m ≤ 31) (a : Fe5) : a.negateV m = some (a.negate m) := by
  unfold negateV
  refine bind_step (check_true ?_) (bind_step (check_true ?_) (bind_step (check_true ?_) rfl)) <;>
    · rw [decide_eq_true_eq]
      simp only [u64, feP0, m52, m48]
      rw [Nat.mod_eq_of_lt (by omega), Nat.mod_eq_of_lt (by omega)]
      omega

theorem halfV_eq (r : Fe5) : r.halfV = some r.half := by
  unfold halfV
  refine bind_step (check_true ?_) rfl
  rw [decide_eq_true_eq, land_one', land_one']
  have e : feP0 &&& sub64 0 (r.n0 % 2) >>> 12 = r.n0 % 2 * feP0 := by
    rcases Nat.mod_two_eq_zero_or_one r.n0 with e | e <;> rw [e] <;> decide
  rw [e]
  unfold u64 feP0
  omega

end Model.Fe5
end Secp
