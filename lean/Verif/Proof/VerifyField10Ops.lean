import Verif.Proof.VerifyField10
import Verif.Proof.Field10x26Ops

/-!
# Helper lemmas: the checks of a `VERIFY` build in the normalizations, the negation and the halving on ten limbs
-/

namespace Secp
open Model Model.Verify
namespace Model.Fe10

theorem pass1_passed (r : Fe10) : r.pass1.Passed := by
  have k : ∀ x, x &&& m26 < 2 ^ 26 := fun x => by
    rw [land_m26]
    exact Nat.mod_lt _ (by norm_num)
  refine ⟨⟨k _, k _, k _, k _, k _, k _, k _, k _, k _⟩, ?_⟩
  unfold pass1 carry
  simp only [land_m22, Nat.shiftRight_eq_div_pow]
  generalize r.n8 + _ = y
  have h1 : u32 y < 2 ^ 32 := Nat.mod_lt _ (by norm_num)
  have h2 := Nat.mod_lt r.n9 (show 0 < 2 ^ 22 by norm_num)
  have h3 : u32 (r.n9 % 2 ^ 22 + u32 y / 2 ^ 26) ≤ r.n9 % 2 ^ 22 + u32 y / 2 ^ 26 := Nat.mod_le _ _
  omega

theorem pass1V_eq (r : Fe10) : r.pass1V = some r.pass1 := by
  have h := (pass1_passed r).n9
  unfold pass1V
  refine bind_step (check_true ?_) rfl
  rw [decide_eq_true_eq, Nat.shiftRight_eq_div_pow]
  omega

theorem pass2V_eq {t : Fe10} (h : t.Passed) {x : ℕ} (hx : x = if p ≤ t.nat then 1 else 0) :
    t.pass2V x x = some (t.pass2 x) := by
  refine bind_step (check_true ?_) rfl
  rw [decide_eq_true_eq, Nat.shiftRight_eq_div_pow]
  have hlt := h.lt
  obtain ⟨⟨h0, h1, h2, h3, h4, h5, h6, h7, h8⟩, h9⟩ := h
  have hx' : x = 1 ∧ p ≤ t.nat ∨ x = 0 ∧ t.nat < p := by
    by_cases h : p ≤ t.nat
    · rw [if_pos h] at hx; exact .inl ⟨hx, h⟩
    · rw [if_neg h] at hx; exact .inr ⟨hx, by omega⟩
  clear hx
  have hx1 : x ≤ 1 := by omega
  obtain ⟨⟨l0, l1, l2, l3, l4, l5, l6, l7, l8⟩, c2, c3⟩ := carry_spec (r := t) (x := x) (t9 := t.n9) (by omega) (by omega)
    (by omega) (by omega) (by omega) (by omega) (by omega) (by omega) (by omega) (by omega)
  have c3 : (t.carry x t.n9).nat = t.nat + x * 0x1000003D1 := by omega
  have hn : (t.carry x t.n9).nat = (t.pass2 x).nat + (t.carry x t.n9).n9 / 2 ^ 22 * 2 ^ 256 := by
    have := Nat.div_add_mod (t.carry x t.n9).n9 (2 ^ 22)
    unfold pass2 nat
    simp only [land_m22]
    clear * - this
    omega
  have hr : (t.pass2 x).nat < 2 ^ 256 := by
    have := Nat.mod_lt (t.carry x t.n9).n9 (show 0 < 2 ^ 22 by norm_num)
    unfold pass2 nat
    simp only [land_m22]
    clear * - this l0 l1 l2 l3 l4 l5 l6 l7 l8
    omega
  generalize (t.carry x t.n9).n9 / 2 ^ 22 = q at *
  generalize (t.pass2 x).nat = R at *
  rw [c3] at hn
  clear c2 c3 l0 l1 l2 l3 l4 l5 l6 l7 l8 h0 h1 h2 h3 h4 h5 h6 h7 h8 h9
  generalize t.nat = N at *
  unfold p at *
  rcases hx' with ⟨rfl, h⟩ | ⟨rfl, h⟩ <;> omega

theorem normalizeV_eq (r : Fe10) : r.normalizeV = some r.normalize :=
  bind_step (pass1V_eq r) (pass2V_eq (pass1_passed r) (needsReduce_spec (pass1_passed r)))

theorem normalizeVarV_eq (r : Fe10) : r.normalizeVarV = some r.normalizeVar := by
  refine bind_step (pass1V_eq r) ?_
  unfold normalizeVar
  have e := needsReduce_spec (pass1_passed r)
  have h := pass2V_eq (pass1_passed r) e
  by_cases hp : p ≤ r.pass1.nat
  · rw [if_pos hp] at e
    rw [e] at h
    simp only [e]
    exact h
  · rw [if_neg hp] at e
    simp only [e]
    rfl

theorem normalizesToZeroV_eq (r : Fe10) : r.normalizesToZeroV = some r.normalizesToZero := by
  have h := (pass1_passed r).n9
  unfold normalizesToZeroV
  refine bind_step (check_true ?_) rfl
  rw [decide_eq_true_eq, Nat.shiftRight_eq_div_pow]
  omega

theorem normalizesToZeroVarV_eq (r : Fe10) : r.normalizesToZeroVarV = some r.normalizesToZeroVar := by
  have h := (pass1_passed r).n9
  unfold normalizesToZeroVarV normalizesToZeroVar
  simp only
  split
  · rfl
  · refine bind_step (check_true ?_) rfl
    rw [decide_eq_true_eq]
    show r.pass1.n9 >>> 23 = 0
    rw [Nat.shiftRight_eq_div_pow]
    omega

theorem negateV_eq {m : ℕ} (hm : m ≤ 31) (a : Fe10) : a.negateV m = some (a.negate m) := by
  unfold negateV
  refine bind_step (check_true ?_) (bind_step (check_true ?_) (bind_step (check_true ?_)
    (bind_step (check_true ?_) rfl))) <;>
    · rw [decide_eq_true_eq]
      simp only [u32]
      rw [Nat.mod_eq_of_lt (by omega), Nat.mod_eq_of_lt (by omega)]
      omega

theorem halfV_eq (r : Fe10) : r.halfV = some r.half := by
  unfold halfV
  refine bind_step (check_true ?_) rfl
  rw [decide_eq_true_eq, land_one', land_one']
  have e : 0x3FFFC2F &&& sub32 0 (r.n0 % 2) >>> 6 = r.n0 % 2 * 0x3FFFC2F := by
    rcases Nat.mod_two_eq_zero_or_one r.n0 with e | e <;> rw [e] <;> decide
  rw [e]
  unfold u32
  omega

end Model.Fe10
end Secp
