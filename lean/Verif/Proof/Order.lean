import Mathlib.GroupTheory.Perm.Cycle.Type
import Mathlib.GroupTheory.SpecificGroups.Cyclic
import Mathlib.Algebra.Module.ZMod
import Verif.Proof.NatCurve

/-!
# secp256k1 has exactly `n` points, all of them multiples of the generator
-/

namespace Secp

open WeierstrassCurve

theorem p_odd : p % 2 = 1 := by decide +kernel

/-- Negation flips the parity of a nonzero residue. -/
theorem neg_val_parity {y : Fp} (hy : y ≠ 0) : (-y).val % 2 = 1 - y.val % 2 := by
  have h := ZMod.neg_val y
  rw [if_neg hy] at h
  rw [h]
  have := ZMod.val_lt y
  have := p_odd
  omega

theorem y_ne_zero {x y : Fp} (h : E.Nonsingular x y) : y ≠ 0 :=
  neg7_not_cube.y_ne (nonsingular_eq h)

/-- Abscissa and parity of the ordinate (`none` at infinity): an injection. -/
def ptCode : Pt → Option (Fp × Bool)
  | .zero => none
  | .some x y _ => some (x, y.val % 2 == 1)

theorem ptCode_injective : Function.Injective ptCode := by
  intro P Q h
  cases P with
  | zero => cases Q with
    | zero => rfl
    | some x y hn => simp [ptCode] at h
  | some x y hn => cases Q with
    | zero => simp [ptCode] at h
    | some x' y' hn' =>
      simp only [ptCode, Option.some.injEq, Prod.mk.injEq] at h
      obtain ⟨rfl, h⟩ := h
      rcases y_eq_or_neg hn hn' with rfl | rfl
      · rfl
      · exfalso
        rw [neg_val_parity (y_ne_zero hn')] at h
        rcases Nat.mod_two_eq_zero_or_one y'.val with h0 | h0 <;> rw [h0] at h <;> simp at h

instance : Finite Pt := Finite.of_injective ptCode ptCode_injective

theorem card_le : Nat.card Pt ≤ 2 * p + 1 := by
  have h := Nat.card_le_card_of_injective ptCode ptCode_injective
  have : Nat.card (Option (Fp × Bool)) = 2 * p + 1 := by
    rw [Finite.card_option, Nat.card_prod]
    simp [Nat.card_zmod, Nat.mul_comm]
  omega

theorem addOrderOf_G : addOrderOf G = n :=
  addOrderOf_eq_prime n_smul_G G_ne_zero

/-- There is no point of order two. -/
theorem add_self_ne_zero {P : Pt} (h : P ≠ 0) : P + P ≠ 0 := by
  cases P with
  | zero => exact absurd rfl h
  | some x y hn =>
    obtain ⟨h', e⟩ := add_some_self neg7_not_cube (h₁ := hn) rfl rfl
    rw [e]
    exact Affine.Point.some_ne_zero _

theorem card_Pt : Nat.card Pt = n := by
  have hd : n ∣ Nat.card Pt := addOrderOf_G ▸ addOrderOf_dvd_natCard G
  obtain ⟨k, hk⟩ := hd
  have hpos : 0 < Nat.card Pt := Nat.card_pos
  have hle := card_le
  have hlt : 2 * p + 1 < n * 3 := by decide +kernel
  have hk3 : k < 3 := by
    by_contra h
    have : n * 3 ≤ n * k := Nat.mul_le_mul_left n (by omega)
    omega
  have hk0 : k ≠ 0 := by rintro rfl; simp at hk; omega
  have hk2 : k ≠ 2 := by
    rintro rfl
    haveI : Fintype Pt := Fintype.ofFinite Pt
    have h2 : 2 ∣ Nat.card Pt := ⟨n, by rw [hk, Nat.mul_comm]⟩
    rw [Nat.card_eq_fintype_card] at h2
    haveI : Fact (Nat.Prime 2) := ⟨Nat.prime_two⟩
    obtain ⟨P, hP⟩ := exists_prime_addOrderOf_dvd_card 2 h2
    have h0 : P ≠ 0 := by
      rintro rfl
      simp at hP
    apply add_self_ne_zero h0
    rw [← two_nsmul, ← hP]
    exact addOrderOf_nsmul_eq_zero P
  have : k = 1 := by omega
  rw [hk, this, Nat.mul_one]

theorem n_smul (P : Pt) : n • P = 0 := by
  rw [← card_Pt]
  exact card_nsmul_eq_zero'

/-- Scalars modulo `n` act on the points. -/
noncomputable instance : Module Fn Pt := AddCommGroup.zmodModule n_smul

theorem natCast_smul (k : ℕ) (P : Pt) : ((k : Fn) • P) = k • P := Nat.cast_smul_eq_nsmul Fn k P

theorem val_smul (a : Fn) (P : Pt) : a.val • P = a • P := by
  rw [← natCast_smul, ZMod.natCast_val, ZMod.cast_id', id]

theorem exists_smul_G (P : Pt) : ∃ a : Fn, a • G = P := by
  have : P ∈ AddSubgroup.zmultiples G := mem_zmultiples_of_prime_card (p := n) card_Pt G_ne_zero
  obtain ⟨k, hk⟩ := AddSubgroup.mem_zmultiples_iff.1 this
  exact ⟨(k : Fn), by rw [Int.cast_smul_eq_zsmul]; exact hk⟩

theorem exists_smul_of_ne_zero {P : Pt} (h : P ≠ 0) (Q : Pt) : ∃ a : Fn, Q = a • P := by
  have : Q ∈ AddSubgroup.zmultiples P := mem_zmultiples_of_prime_card (p := n) card_Pt h
  obtain ⟨k, hk⟩ := AddSubgroup.mem_zmultiples_iff.1 this
  exact ⟨(k : Fn), by rw [Int.cast_smul_eq_zsmul]; exact hk.symm⟩

theorem smul_eq_zero_iff {a : Fn} {P : Pt} : a • P = 0 ↔ a = 0 ∨ P = 0 := by
  constructor
  · intro h
    by_cases ha : a = 0
    · exact .inl ha
    · right
      have := congrArg (a⁻¹ • ·) h
      simpa [smul_smul, inv_mul_cancel₀ ha] using this
  · rintro (rfl | rfl) <;> simp

theorem smul_left_injective {P : Pt} (hP : P ≠ 0) {a b : Fn} (h : a • P = b • P) : a = b := by
  rw [← sub_eq_zero, ← sub_smul, smul_eq_zero_iff] at h
  rcases h with h | h
  · exact sub_eq_zero.1 h
  · exact absurd h hP

end Secp
