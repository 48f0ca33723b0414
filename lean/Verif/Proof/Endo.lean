import Verif.Proof.Iso
import Verif.Proof.PreGOk

/-!
# The endomorphism `(x, y) ↦ (βx, y)` is multiplication by `λ`, and the scalar split
-/

namespace Secp
open WeierstrassCurve Model FeOps

theorem beta_cube : (constBeta : Fp) ^ 3 = 1 := by
  have : ((constBeta ^ 3 : ℕ) : Fp) = ((1 : ℕ) : Fp) := by
    rw [ZMod.natCast_eq_natCast_iff']; decide +kernel
  exact_mod_cast this

theorem endoScaling {b : Fp} (hb : NoTwoTorsion b) : Scaling b b (constBeta : Fp) 1 :=
  ⟨hb, one_ne_zero, by rw [beta_cube]; ring, by ring⟩

/-- `(x, y) ↦ (βx, y)`. -/
def endo {b : Fp} (hb : NoTwoTorsion b) : (curve b).Point →+ (curve b).Point := (endoScaling hb).hom

/-- `λ` as a scalar -/
def lam : Fn := (constLambda : Fn)

theorem lamG_entry : Entry (constBeta * gx % p, gy) (constLambda • G) :=
  natMul_entry constLambda _ (by decide +kernel) (by decide +kernel)

theorem endo_G : endo neg7_not_cube G = lam • G := by
  obtain ⟨hn, e⟩ := lamG_entry.elim rfl
  rw [lam, natCast_smul, e]
  unfold G
  rw [endo, Scaling.hom_some]
  apply some_eq_some
  · simp only [geFromStorage, FeOps.ofStorage]; rw [cast_mod_p, Nat.cast_mul]
  · simp only [geFromStorage, FeOps.ofStorage, one_mul]

theorem endo_eq_smul (P : Pt) : endo neg7_not_cube P = lam • P := by
  obtain ⟨a, rfl⟩ := exists_smul_G P
  rw [← val_smul a G, map_nsmul, endo_G, val_smul, val_smul, smul_comm]

/-- The endomorphism on the isomorphic curve, on coordinates. -/
theorem endo_rep {u : Fp} (hu : u ≠ 0) {g : Ge Fp} {P : Pt}
    (h : GeRep (7 * u ^ 6) g (iso neg7_not_cube hu P)) :
    GeRep (7 * u ^ 6) ⟨g.x * (constBeta : Fp), g.y, g.infinity⟩
      (iso neg7_not_cube hu (lam • P)) := by
  cases hi : g.infinity
  · rw [iso_rep_ge] at h ⊢
    rw [hi] at h
    obtain ⟨x, y, hn, hz, hx, hy, e⟩ := h.elim rfl
    rw [← endo_eq_smul, e, endo, Scaling.hom_some]
    apply GejRep.intro rfl hu
    · simp only at *; rw [hx]; ring
    · simp only at *; rw [hy]; ring
  · have := h.inf_iff.1 hi
    rw [iso_eq_zero] at this
    rw [this, smul_zero, map_zero]
    unfold GeRep; simp

/-! ### `secp256k1_scalar_split_lambda` -/

/-- At most 128 bits in absolute value. -/
def Small (a : Fn) : Prop := a.val < 2 ^ 128 ∨ (-a).val < 2 ^ 128

theorem small_of_int {z : ℤ} (h1 : -(2 ^ 128) < z) (h2 : z < 2 ^ 128) : Small ((z : ℤ) : Fn) := by
  have hn : (2 : ℕ) ^ 128 < n := by decide +kernel
  rcases le_or_gt 0 z with h | h
  · left
    obtain ⟨k, rfl⟩ := Int.eq_ofNat_of_zero_le h
    have : k < 2 ^ 128 := by exact_mod_cast h2
    rw [Int.cast_natCast, ZMod.val_natCast_of_lt (by omega)]
    exact this
  · right
    obtain ⟨k, hk⟩ := Int.eq_ofNat_of_zero_le (a := -z) (by omega)
    have h3 : -((z : ℤ) : Fn) = ((k : ℕ) : Fn) := by
      rw [← Int.cast_neg, hk, Int.cast_natCast]
    have : k < 2 ^ 128 := by omega
    rw [h3, ZMod.val_natCast_of_lt (by omega)]
    exact this

theorem round_eq (x k : ℕ) : (x / 2 ^ (k + 1) + x / 2 ^ k % 2) * 2 ^ (k + 1) ≤ x + 2 ^ k ∧
    x < (x / 2 ^ (k + 1) + x / 2 ^ k % 2) * 2 ^ (k + 1) + 2 ^ k := by
  have h1 : x / 2 ^ (k + 1) = x / 2 ^ k / 2 := by rw [Nat.div_div_eq_div_mul, pow_succ]
  rw [h1, pow_succ]
  have h2 := Nat.div_add_mod x (2 ^ k)
  have h3 := Nat.mod_lt x (Nat.two_pow_pos k)
  generalize x / 2 ^ k = q at *
  generalize x % 2 ^ k = r at *
  generalize 2 ^ k = m at *
  have h4 := Nat.div_add_mod q 2
  rcases Nat.mod_two_eq_zero_or_one q with h | h
  · rw [h] at h4 ⊢
    have : m * q = q / 2 * (m * 2) := by rw [← h4]; simp; ring
    constructor <;> · rw [add_zero]; omega
  · rw [h] at h4 ⊢
    have : m * q + m = (q / 2 + 1) * (m * 2) := by
      conv_lhs => rw [← h4]
      ring
    constructor <;> omega

theorem cast_n : ((n : ℕ) : Fn) = 0 := ZMod.natCast_self n

theorem fn_natCast_eq {a b : ℕ} (h : a % n = b % n) : (a : Fn) = (b : Fn) := by
  rw [ZMod.natCast_eq_natCast_iff']; exact h

/-- The scalar split: `r1 + λ·r2 = k`, both at most 128 bits in absolute value. -/
theorem splitLambda_spec (k : Fn) :
    (scSplitLambda k).1 + lam * (scSplitLambda k).2 = k ∧ Small (scSplitLambda k).1 ∧
      Small (scSplitLambda k).2 := by
  refine ⟨by simp only [scSplitLambda, lam, scConst]; ring, ?_⟩
  have hk : k.val < n := ZMod.val_lt k
  have hkk : k = ((k.val : ℕ) : Fn) := by rw [ZMod.natCast_val, ZMod.cast_id', id]
  have hg1 : (scConst splitG1).val = splitG1 := ZMod.val_natCast_of_lt (by decide +kernel)
  have hg2 : (scConst splitG2).val = splitG2 := ZMod.val_natCast_of_lt (by decide +kernel)
  have b1 := round_eq (k.val * splitG1) 383
  have b2 := round_eq (k.val * splitG2) 383
  have e1 : scMulShift k (scConst splitG1) 384 =
      ((k.val * splitG1 / 2 ^ (383 + 1) + k.val * splitG1 / 2 ^ 383 % 2 : ℕ) : Fn) := by
    rw [scMulShift, hg1]
  have e2 : scMulShift k (scConst splitG2) 384 =
      ((k.val * splitG2 / 2 ^ (383 + 1) + k.val * splitG2 / 2 ^ 383 % 2 : ℕ) : Fn) := by
    rw [scMulShift, hg2]
  simp only [scSplitLambda, e1, e2]
  generalize k.val * splitG1 / 2 ^ (383 + 1) + k.val * splitG1 / 2 ^ 383 % 2 = c1 at b1 ⊢
  generalize k.val * splitG2 / 2 ^ (383 + 1) + k.val * splitG2 / 2 ^ 383 % 2 = c2 at b2 ⊢
  rw [hkk]
  generalize k.val = v at *
  -- the lattice vectors (a1, b1), (a2, b2) with a + b·λ ≡ 0
  have l1 : (scConst minusB1) * scConst constLambda = ((0x3086d221a7d46bcde86c90e49284eb15 : ℕ) : Fn) := by
    rw [scConst, scConst, ← Nat.cast_mul]
    exact fn_natCast_eq (by decide +kernel)
  have l2 : (scConst minusB2) * scConst constLambda =
      ((0x0114ca50f7a8e2f3f657c1108d9d44cfd8 : ℕ) : Fn) := by
    rw [scConst, scConst, ← Nat.cast_mul]
    exact fn_natCast_eq (by decide +kernel)
  have l3 : scConst minusB2 = -((0x3086d221a7d46bcde86c90e49284eb15 : ℕ) : Fn) := by
    rw [eq_neg_iff_add_eq_zero, scConst, ← Nat.cast_add, ← cast_n]
    exact fn_natCast_eq (by decide +kernel)
  have hn : n = 0xFFFFFFFFFFFFFFFFFFFFFFFFFFFFFFFEBAAEDCE6AF48A03BBFD25E8CD0364141 := by decide +kernel
  rw [hn] at hk
  unfold splitG1 at b1
  unfold splitG2 at b2
  constructor
  · have : -(((c1 : Fn) * scConst minusB1 + (c2 : Fn) * scConst minusB2) * scConst constLambda) +
        (v : Fn) = (((v : ℤ) - c1 * 0x3086d221a7d46bcde86c90e49284eb15 -
          c2 * 0x0114ca50f7a8e2f3f657c1108d9d44cfd8 : ℤ) : Fn) := by
      push_cast at l1 l2 ⊢
      linear_combination -(c1 : Fn) * l1 - (c2 : Fn) * l2
    rw [this]
    apply small_of_int <;> omega
  · have : (c1 : Fn) * scConst minusB1 + (c2 : Fn) * scConst minusB2 =
        (((c1 : ℤ) * 0xE4437ED6010E88286F547FA90ABFE4C3 -
          c2 * 0x3086d221a7d46bcde86c90e49284eb15 : ℤ) : Fn) := by
      rw [l3, scConst, minusB1]
      push_cast
      ring
    rw [this]
    apply small_of_int <;> omega

end Secp
