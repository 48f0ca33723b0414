import Verif.Proof.VerifyGroup
import Verif.Props.C67
import Verif.Props.C46

/-!
# The checks of a `VERIFY` build for the two field implementations
-/

namespace Secp.Model.Verify
open Secp FeOps LimbRep

theorem sub_and {x k : ℕ} (h : x < 2 ^ k) : x &&& (2 ^ k - 1) = x := by
  rw [Nat.and_two_pow_sub_one_eq_mod, Nat.mod_eq_of_lt h]

theorem shr_zero {x k : ℕ} (h : x < 2 ^ k) : x >>> k = 0 := by
  rw [Nat.shiftRight_eq_div_pow, Nat.div_eq_of_lt h]

theorem pass1_norm5 {a : Fe5} (h : a.Norm) : a.pass1 = a := by
  have h0 := h.n0
  have h1 := h.n1
  have h2 := h.n2
  have h3 := h.n3
  have h4 := h.n4
  have u : ∀ x : ℕ, x < 2 ^ 52 → u64 (x + 0) = x := fun x hx => Nat.mod_eq_of_lt (by omega)
  have e0 : u64 (0 * feC) = 0 := by decide
  unfold Fe5.pass1
  simp only [shr_zero h4, e0, u _ h0, shr_zero h0, u _ h1, shr_zero h1, u _ h2, shr_zero h2, u _ h3, shr_zero h3]
  rw [show m48 = 2 ^ 48 - 1 from rfl, show m52 = 2 ^ 52 - 1 from rfl, sub_and h4, sub_and h0, sub_and h1,
    sub_and h2, sub_and h3, u _ (by omega)]

theorem pass1_norm10 {a : Fe10} (h : a.Norm) : a.pass1 = a := by
  have h9 := h.n9
  obtain ⟨h0, h1, h2, h3, h4, h5, h6, h7, h8, -⟩ := h
  have u : ∀ x : ℕ, x < 2 ^ 26 → u32 (x + 0) = x := fun x hx => Nat.mod_eq_of_lt (by omega)
  unfold Fe10.pass1 Fe10.carry
  simp only [shr_zero h9, Nat.zero_mul, Nat.zero_shiftLeft, u _ h0, shr_zero h0, u _ h1, shr_zero h1, u _ h2, shr_zero h2, u _ h3,
    shr_zero h3, u _ h4, shr_zero h4, u _ h5, shr_zero h5, u _ h6, shr_zero h6, u _ h7, shr_zero h7, u _ h8, shr_zero h8]
  rw [show m22 = 2 ^ 22 - 1 from rfl, show m26 = 2 ^ 26 - 1 from rfl, sub_and h9, sub_and h0, sub_and h1,
    sub_and h2, sub_and h3, sub_and h4, sub_and h5, sub_and h6, sub_and h7, sub_and h8, u _ (by omega)]

theorem magCheck5 {a : Fe5} {m : ℕ} (h : a.Mag m) : FeCheck.implVerify a m false = true := by
  obtain ⟨h0, h1, h2, h3, h4⟩ := h
  simp only [FeCheck.implVerify, Bool.and_eq_true, decide_eq_true_eq, Bool.false_eq_true, if_false, Bool.not_false, Bool.true_or, and_true]
  refine ⟨⟨⟨⟨?_, ?_⟩, ?_⟩, ?_⟩, ?_⟩ <;> omega

theorem normCheck5 {a : Fe5} (m : ℕ) (h : a.Norm) : FeCheck.implVerify a m true = true := by
  have h4 := h.n4
  obtain ⟨h0, h1, h2, h3, hp⟩ := h
  simp only [FeCheck.implVerify, Bool.and_eq_true, decide_eq_true_eq, if_true, Bool.not_true, Bool.false_or, Bool.or_eq_true,
    Bool.not_eq_true', Nat.mul_one]
  refine ⟨⟨⟨⟨⟨by omega, by omega⟩, by omega⟩, by omega⟩, by omega⟩, ?_⟩
  by_cases hc : (a.n4 == 0x0FFFFFFFFFFFF && (a.n3 &&& a.n2 &&& a.n1) == 0xFFFFFFFFFFFFF) = true
  · right
    simp only [Bool.and_eq_true, beq_iff_eq] at hc
    obtain ⟨g4, g⟩ := hc
    have l1 : a.n3 &&& a.n2 &&& a.n1 ≤ a.n1 := Nat.and_le_right
    have l2 : a.n3 &&& a.n2 &&& a.n1 ≤ a.n3 &&& a.n2 := Nat.and_le_left
    have l3 : a.n3 &&& a.n2 ≤ a.n3 := Nat.and_le_left
    have l4 : a.n3 &&& a.n2 ≤ a.n2 := Nat.and_le_right
    unfold Fe5.nat p at hp
    omega
  · left
    simpa using hc

theorem magCheck10 {a : Fe10} {m : ℕ} (h : a.Mag m) : FeCheck.implVerify a m false = true := by
  obtain ⟨h0, h1, h2, h3, h4, h5, h6, h7, h8, h9⟩ := h
  simp only [FeCheck.implVerify, Bool.and_eq_true, decide_eq_true_eq, Bool.false_eq_true, if_false, Bool.not_false, Bool.true_or, and_true]
  refine ⟨⟨⟨⟨⟨⟨⟨⟨⟨?_, ?_⟩, ?_⟩, ?_⟩, ?_⟩, ?_⟩, ?_⟩, ?_⟩, ?_⟩, ?_⟩ <;> omega

theorem normCheck10 {a : Fe10} (m : ℕ) (h : a.Norm) : FeCheck.implVerify a m true = true := by
  have h9 := h.n9
  obtain ⟨h0, h1, h2, h3, h4, h5, h6, h7, h8, hp⟩ := h
  simp only [FeCheck.implVerify, Bool.and_eq_true, decide_eq_true_eq, if_true, Bool.not_true, Bool.false_or, Bool.or_eq_true,
    Bool.not_eq_true', Nat.mul_one]
  refine ⟨⟨⟨⟨⟨⟨⟨⟨⟨⟨by omega, by omega⟩, by omega⟩, by omega⟩, by omega⟩, by omega⟩, by omega⟩, by omega⟩, by omega⟩, by omega⟩, ?_⟩
  by_cases g9 : a.n9 = 0x03FFFFF
  · right
    by_cases g : (a.n8 &&& a.n7 &&& a.n6 &&& a.n5 &&& a.n4 &&& a.n3 &&& a.n2) = 0x3FFFFFF
    · right
      have l2 : a.n8 &&& a.n7 &&& a.n6 &&& a.n5 &&& a.n4 &&& a.n3 &&& a.n2 ≤ a.n2 := Nat.and_le_right
      have m2 : a.n8 &&& a.n7 &&& a.n6 &&& a.n5 &&& a.n4 &&& a.n3 &&& a.n2 ≤ a.n8 &&& a.n7 &&& a.n6 &&& a.n5 &&& a.n4 &&& a.n3 := Nat.and_le_left
      have l3 : a.n8 &&& a.n7 &&& a.n6 &&& a.n5 &&& a.n4 &&& a.n3 ≤ a.n3 := Nat.and_le_right
      have m3 : a.n8 &&& a.n7 &&& a.n6 &&& a.n5 &&& a.n4 &&& a.n3 ≤ a.n8 &&& a.n7 &&& a.n6 &&& a.n5 &&& a.n4 := Nat.and_le_left
      have l4 : a.n8 &&& a.n7 &&& a.n6 &&& a.n5 &&& a.n4 ≤ a.n4 := Nat.and_le_right
      have m4 : a.n8 &&& a.n7 &&& a.n6 &&& a.n5 &&& a.n4 ≤ a.n8 &&& a.n7 &&& a.n6 &&& a.n5 := Nat.and_le_left
      have l5 : a.n8 &&& a.n7 &&& a.n6 &&& a.n5 ≤ a.n5 := Nat.and_le_right
      have m5 : a.n8 &&& a.n7 &&& a.n6 &&& a.n5 ≤ a.n8 &&& a.n7 &&& a.n6 := Nat.and_le_left
      have l6 : a.n8 &&& a.n7 &&& a.n6 ≤ a.n6 := Nat.and_le_right
      have m6 : a.n8 &&& a.n7 &&& a.n6 ≤ a.n8 &&& a.n7 := Nat.and_le_left
      have l7 : a.n8 &&& a.n7 ≤ a.n7 := Nat.and_le_right
      have m7 : a.n8 &&& a.n7 ≤ a.n8 := Nat.and_le_left
      rw [g] at l2 m2
      have g8 : a.n8 = 0x3FFFFFF := by omega
      have g7 : a.n7 = 0x3FFFFFF := by omega
      have g6 : a.n6 = 0x3FFFFFF := by omega
      have g5 : a.n5 = 0x3FFFFFF := by omega
      have g4 : a.n4 = 0x3FFFFFF := by omega
      have g3 : a.n3 = 0x3FFFFFF := by omega
      have g2 : a.n2 = 0x3FFFFFF := by omega
      clear l2 m2 l3 m3 l4 m4 l5 m5 l6 m6 l7 m7 g
      rw [Nat.shiftRight_eq_div_pow]
      unfold Fe10.nat p at hp
      rw [g2, g3, g4, g5, g6, g7, g8, g9] at hp
      omega
    · left
      simpa using g
  · left
    simpa using g9

theorem mag0_5 {a : Fe5} (h : a.Mag 0) : a.Rep 8 0 := by
  obtain ⟨h0, h1, h2, h3, h4⟩ := h
  refine ⟨by constructor <;> omega, ?_⟩
  rw [show a.nat = 0 by unfold Fe5.nat; omega, Nat.cast_zero]

theorem mag0_10 {a : Fe10} (h : a.Mag 0) : a.Rep 8 0 := by
  obtain ⟨h0, h1, h2, h3, h4, h5, h6, h7, h8, h9⟩ := h
  refine ⟨by constructor <;> omega, ?_⟩
  rw [show a.nat = 0 by unfold Fe10.nat; omega, Nat.cast_zero]

theorem nat0_5 {a : Fe5} (h : a.nat = 0) : a.Mag 0 := by
  unfold Fe5.nat at h
  constructor <;> omega

theorem nat0_10 {a : Fe10} (h : a.nat = 0) : a.Mag 0 := by
  unfold Fe10.nat at h
  constructor <;> omega

section
attribute [local instance] safegcdInv

theorem verifyRep5 : VerifyRep Fe5 := by
  obtain ⟨M⟩ := Fe5.memRep safegcdInv_ok
  have inv {x : Fe5} {v : Fp} (hx : x.Rep 8 v) : (FeOps.inv x).Norm ∧ (v = 0 → (FeOps.inv x).nat = 0) := by
    obtain ⟨r, e, hn, h0, -⟩ := C46_fe_inv (hx.mono (by norm_num))
    have : FeOps.inv x = r := by show (Fe5.inv? x).getD _ = r; rw [e]; rfl
    rw [this]; exact ⟨hn, h0⟩
  have invVar {x : Fe5} {v : Fp} (hx : x.Rep 8 v) : (FeOps.invVar x).Norm ∧ (v = 0 → (FeOps.invVar x).nat = 0) := by
    obtain ⟨r, e, hn, h0, -⟩ := C46_fe_inv_var (hx.mono (by norm_num)) (le_refl 12)
    have : FeOps.invVar x = r := by show (Fe5.invVar? 12 x).getD _ = r; rw [e]; rfl
    rw [this]; exact ⟨hn, h0⟩
  exact {
    rep := fun {a m} h => ⟨(a.nat : Fp), (⟨h, rfl⟩ : a.Rep m (a.nat : Fp))⟩
    mag := fun {a m v} h => (h : a.Rep m v).mag
    magCheck := magCheck5
    normCheck := normCheck5
    normMag := fun h => Fe5.Norm.mag h
    normalize := fun {a} h => (C45_normalize ((⟨h, rfl⟩ : a.Rep 31 (a.nat : Fp)).mono (by norm_num))).1
    weak := fun {a} h => by show Fe5.Norm a.pass1; rw [pass1_norm5 h]; exact h
    setInt := fun h => (C45_set_int h).1
    setInt0 := nat0_5 (Fe5.setInt_spec (by norm_num)).2
    const := fun {k} hk => by
      obtain ⟨h, h0, h1, h2, h3, h4⟩ := Fe5.feConst_spec (lt_trans hk p_lt_256)
      exact (⟨h0, h1, h2, h3, by rw [h]; exact hk⟩ : Fe5.Norm (Fe5.feConst k))
    inv := fun {a} h => (inv (⟨h, rfl⟩ : a.Rep 8 (a.nat : Fp))).1
    inv0 := fun h => nat0_5 ((inv (mag0_5 h)).2 rfl)
    invVar := fun {a} h => (invVar (⟨h, rfl⟩ : a.Rep 8 (a.nat : Fp))).1
    invVar0 := fun h => nat0_5 ((invVar (mag0_5 h)).2 rfl)
    invOk := safegcdInv_ok
    isSquare := M.isSquareVar }
end

section
attribute [local instance] safegcdInv32

theorem verifyRep10 : VerifyRep Fe10 := by
  obtain ⟨M⟩ := Fe10.memRep safegcdInv32_ok
  have inv {x : Fe10} {v : Fp} (hx : x.Rep 8 v) : (FeOps.inv x).Norm ∧ (v = 0 → (FeOps.inv x).nat = 0) := by
    obtain ⟨r, e, hn, h0, -⟩ := C66_fe_inv (.inl (hx.mono (by norm_num)).mag) hx.val
    have : FeOps.inv x = r := by show (Fe10.inv? x).getD _ = r; rw [e]; rfl
    rw [this]; exact ⟨hn, h0⟩
  have invVar {x : Fe10} {v : Fp} (hx : x.Rep 8 v) : (FeOps.invVar x).Norm ∧ (v = 0 → (FeOps.invVar x).nat = 0) := by
    obtain ⟨r, e, hn, h0, -⟩ := C66_fe_inv_var (.inl (hx.mono (by norm_num)).mag) hx.val (le_refl 25)
    have : FeOps.invVar x = r := by show (Fe10.invVar? 25 x).getD _ = r; rw [e]; rfl
    rw [this]; exact ⟨hn, h0⟩
  exact {
    rep := fun {a m} h => ⟨(a.nat : Fp), (⟨h, rfl⟩ : a.Rep m (a.nat : Fp))⟩
    mag := fun {a m v} h => (h : a.Rep m v).mag
    magCheck := magCheck10
    normCheck := normCheck10
    normMag := fun h => Fe10.Norm.mag h
    normalize := fun {a} h => (C64_normalize (.inl h) rfl).1
    weak := fun {a} h => by show Fe10.Norm a.pass1; rw [pass1_norm10 h]; exact h
    setInt := fun h => (C64_set_int h).1
    setInt0 := nat0_10 (Fe10.setInt_spec (by norm_num)).2
    const := fun {k} hk => by
      obtain ⟨h, h0, h9⟩ := Fe10.feConst_spec (lt_trans hk p_lt_256)
      exact (h0.norm (by rw [h]; exact hk) : Fe10.Norm (Fe10.feConst k))
    inv := fun {a} h => (inv (⟨h, rfl⟩ : a.Rep 8 (a.nat : Fp))).1
    inv0 := fun h => nat0_10 ((inv (mag0_10 h)).2 rfl)
    invVar := fun {a} h => (invVar (⟨h, rfl⟩ : a.Rep 8 (a.nat : Fp))).1
    invVar0 := fun h => nat0_10 ((invVar (mag0_10 h)).2 rfl)
    invOk := safegcdInv32_ok
    isSquare := M.isSquareVar }
end

end Secp.Model.Verify
