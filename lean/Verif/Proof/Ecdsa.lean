import Verif.Proof.DerSer
import Verif.Spec.Ecdsa

/-! # ECDSA verification and signing in terms of points -/

namespace Secp
open WeierstrassCurve Model Spec

theorem n_odd : n % 2 = 1 := by decide +kernel

theorem scIsHigh_iff (s : Fn) : scIsHigh s = true ↔ 2 * s.val > n := by
  unfold scIsHigh
  rw [decide_eq_true_iff]
  have := n_odd
  omega

theorem scIsHigh_neg {s : Fn} (h : scIsHigh s = true) : scIsHigh (-s) = false := by
  rw [Bool.eq_false_iff, Ne, scIsHigh_iff]
  rw [scIsHigh_iff] at h
  have hs : s ≠ 0 := by
    rintro rfl
    simp at h
  have : NeZero s := ⟨hs⟩
  rw [ZMod.val_neg_of_ne_zero]
  have := ZMod.val_lt s
  omega

theorem p_lt_2n : p < 2 * n := by decide +kernel

theorem lowS_eq (s : Fn) : lowS s = scCondNegate s (scIsHigh s) := by
  unfold lowS scCondNegate
  simp only [scIsHigh_iff]

theorem lowS_low (s : Fn) : scIsHigh (lowS s) = false := by
  rw [lowS_eq]
  cases h : scIsHigh s
  · exact h
  · exact scIsHigh_neg h

theorem lowS_ne_zero {s : Fn} (h : s ≠ 0) : lowS s ≠ 0 := by
  unfold lowS
  split
  · exact neg_ne_zero.2 h
  · exact h

theorem lowS_eq_zero {s : Fn} : lowS s = 0 ↔ s = 0 := by
  constructor
  · intro h
    by_contra hs
    exact lowS_ne_zero hs h
  · rintro rfl
    simp [lowS]

theorem ecdsaOrderAsFe_eq : ecdsaOrderAsFe = ((n : ℕ) : Fp) := by
  rw [ecdsaOrderAsFe, n]

theorem ecdsaPMinusOrder_val : ecdsaPMinusOrder.val = p - n := by decide +kernel

theorem fe_of_scalar (r : Fn) : (feSetB32Limit (scGetB32 r)).1 = ((r.val : ℕ) : Fp) := by
  have hb : beNat ((scGetB32 r).take 32) = r.val := by
    rw [List.take_of_length_le (by rw [scGetB32_length]), beNat_scGetB32]
  rw [feSetB32Limit_lt (by rw [hb]; exact lt_trans (ZMod.val_lt r) n_lt_p), hb]

theorem fe_of_scalar_val (r : Fn) : (((r.val : ℕ) : Fp)).val = r.val := by
  rw [ZMod.val_natCast, Nat.mod_eq_of_lt (lt_trans (ZMod.val_lt r) n_lt_p)]

theorem feCmp_ge (r : Fn) : feCmpVar ((r.val : ℕ) : Fp) ecdsaPMinusOrder ≥ 0 ↔ p - n ≤ r.val := by
  unfold feCmpVar
  rw [fe_of_scalar_val, ecdsaPMinusOrder_val]
  split_ifs <;> simp <;> omega

/-- When x reduced modulo `n` is `r`, for an x coordinate. -/
theorem mod_n_eq_iff {x : ℕ} (hx : x < p) (r : Fn) :
    x % n = r.val ↔ x = r.val ∨ (r.val < p - n ∧ x = r.val + n) := by
  have h1 := p_lt_2n
  have h2 := n_lt_p
  have h3 := ZMod.val_lt r
  constructor
  · intro h
    by_cases hc : x < n
    · rw [Nat.mod_eq_of_lt hc] at h
      exact Or.inl h
    · have : x % n = x - n := by
        rw [Nat.mod_eq_sub_mod (by omega), Nat.mod_eq_of_lt (by omega)]
      omega
  · rintro (rfl | ⟨h4, rfl⟩)
    · exact Nat.mod_eq_of_lt h3
    · rw [Nat.add_mod_right, Nat.mod_eq_of_lt h3]

theorem gejEqX_rep {a : Gej Fp} {P : Pt} (ha : GejRep 7 a P) (hP : P ≠ 0) (x : Fp) :
    gejEqXVar x a = true ↔ x.val = ptX P := by
  rcases pt_cases P with rfl | ⟨x', y', hn, rfl⟩
  · exact absurd rfl hP
  · rw [gejEqXVar_iff ha, ptX_some]
    exact ⟨fun h => by rw [h], fun h => ZMod.val_injective p h⟩

theorem ecdsaPoint_eq (Q : Pt) (z r s : Fn) :
    ecdsaPoint Q z r s = (s⁻¹ * r) • Q + (s⁻¹ * z) • G := by
  rw [ecdsaPoint, val_smul, val_smul, add_comm, div_eq_inv_mul, div_eq_inv_mul]

theorem ecdsaSigVerify_iff {a : Ge Fp} {Q : Pt} (ha : GeRep 7 a Q) (z r s : Fn) :
    ecdsaSigVerify r s a z = true ↔ EcdsaValid Q z r s := by
  unfold ecdsaSigVerify EcdsaValid
  by_cases hr : r = 0
  · have : (scIsZero r || scIsZero s) = true := by rw [(scIsZero_iff r).2 hr]; rfl
    rw [if_pos this]
    simp [hr]
  by_cases hs : s = 0
  · have : (scIsZero r || scIsZero s) = true := by rw [(scIsZero_iff s).2 hs, Bool.or_true]
    rw [if_pos this]
    simp [hs]
  have : ¬ (scIsZero r || scIsZero s) = true := by
    rw [Bool.or_eq_true, scIsZero_iff, scIsZero_iff]; tauto
  rw [if_neg this]
  simp only
  have hrep := ecmult_rep (gejSetGe_rep ha) (s⁻¹ * r) (some (s⁻¹ * z))
  rw [show ((some (s⁻¹ * z)).getD 0 : Fn) = s⁻¹ * z from rfl, ← ecdsaPoint_eq] at hrep
  revert hrep
  generalize ecmult (gejSetGe a) (s⁻¹ * r) (some (s⁻¹ * z)) = pr
  generalize ecdsaPoint Q z r s = R
  intro hrep
  cases hi : pr.infinity
  · have hR : R ≠ 0 := fun e => by rw [← hrep.inf_iff, hi] at e; cases e
    have hx := gejEqX_rep hrep hR
    rw [if_neg (by simp), fe_of_scalar, mod_n_eq_iff (ptX_lt R)]
    simp only [ne_eq, hr, not_false_eq_true, hs, hR, true_and]
    by_cases h1 : gejEqXVar ((r.val : ℕ) : Fp) pr = true
    · rw [if_pos h1]
      rw [hx, fe_of_scalar_val] at h1
      simp [h1]
    · rw [if_neg h1]
      rw [hx, fe_of_scalar_val] at h1
      by_cases h2 : p - n ≤ r.val
      · rw [if_pos ((feCmp_ge r).2 h2)]
        simp only [Bool.false_eq_true, false_iff]
        omega
      · rw [if_neg (fun h => h2 ((feCmp_ge r).1 h)), hx, ecdsaOrderAsFe_eq]
        have : FeOps.add ((r.val : ℕ) : Fp) ((n : ℕ) : Fp) = ((r.val + n : ℕ) : Fp) := by
          rw [Nat.cast_add]; rfl
        rw [this, ZMod.val_natCast, Nat.mod_eq_of_lt (by omega)]
        omega
  · have hR := hrep.inf_iff.1 hi
    rw [if_pos rfl]
    simp [hR]

/-! ## Malleability -/

theorem ecdsaPoint_neg_s (Q : Pt) (z r s : Fn) : ecdsaPoint Q z r (-s) = -ecdsaPoint Q z r s := by
  rw [ecdsaPoint_eq, ecdsaPoint_eq, inv_neg, neg_mul, neg_mul, neg_smul, neg_smul, neg_add]

theorem ecdsaValid_neg_s (Q : Pt) (z r s : Fn) : EcdsaValid Q z r (-s) ↔ EcdsaValid Q z r s := by
  unfold EcdsaValid
  rw [ecdsaPoint_neg_s, ptX_neg, neg_ne_zero, neg_ne_zero]

theorem ecdsaValid_lowS (Q : Pt) (z r s : Fn) : EcdsaValid Q z r (lowS s) ↔ EcdsaValid Q z r s := by
  unfold lowS
  split
  · exact ecdsaValid_neg_s Q z r s
  · rfl

/-! ## Signing -/

theorem ecdsaSigSign_rep {gen : GenCtx} (hg : GenCtxOk gen) (d z : Fn) {k : Fn} (hk : k ≠ 0) :
    (ecdsaSigSign gen d z k).r = ecdsaR k ∧
    (ecdsaSigSign gen d z k).s = lowS (ecdsaS d z k) ∧
    ((ecdsaSigSign gen d z k).ret = true ↔ ecdsaR k ≠ 0 ∧ ecdsaS d z k ≠ 0) ∧
    (ecdsaSigSign gen d z k).recid =
      ((if n ≤ ptX (k.val • G) then 2 else 0) ||| (if ptY (k.val • G) % 2 = 1 then 1 else 0)) ^^^
        (if 2 * (ecdsaS d z k).val > n then 1 else 0) := by
  have hrep := geSetGej_rep (ecmultGen_rep hg k)
  have hne := smul_G_ne hk
  rw [← val_smul] at hrep hne
  have hx := geRep_x hrep hne
  have hy := geRep_y hrep hne
  have hb : beNat ((feGetB32 (FeOps.normalize (geSetGej (ecmultGen gen k)).x)).take 32) =
      ptX (k.val • G) := by
    rw [List.take_of_length_le (by rw [feGetB32_length]), feGetB32, beNat_beBytes]
    simp only [FeOps.normalize]
    rw [Nat.mod_eq_of_lt (fp_lt _), hx]
  have hodd : feIsOdd (FeOps.normalize (geSetGej (ecmultGen gen k)).y) = true ↔
      ptY (k.val • G) % 2 = 1 := by
    rw [feIsOdd_iff, ← hy]; rfl
  have hr : (ecdsaSigSign gen d z k).r = ecdsaR k := by
    simp only [ecdsaSigSign, scSetB32]
    rw [hb]
    rfl
  have hs0 : k⁻¹ * ((ecdsaSigSign gen d z k).r * d + z) = ecdsaS d z k := by
    rw [hr, ecdsaS, div_eq_inv_mul, add_comm]
  have hs : (ecdsaSigSign gen d z k).s = lowS (ecdsaS d z k) := by
    rw [lowS_eq, ← hs0]
    rfl
  refine ⟨hr, hs, ?_, ?_⟩
  · have e : (ecdsaSigSign gen d z k).ret = (!scIsZero (ecdsaSigSign gen d z k).r &&
        !scIsZero (ecdsaSigSign gen d z k).s) := rfl
    rw [e, hr, hs, Bool.and_eq_true, Bool.not_eq_true', Bool.not_eq_true', Bool.eq_false_iff,
      Bool.eq_false_iff, Ne, Ne, scIsZero_iff, scIsZero_iff, lowS_eq_zero]
  · have e : (ecdsaSigSign gen d z k).recid = ((if (scSetB32 (feGetB32 (FeOps.normalize
        (geSetGej (ecmultGen gen k)).x))).2 then 2 else 0) |||
        (if feIsOdd (FeOps.normalize (geSetGej (ecmultGen gen k)).y) then 1 else 0)) ^^^
        (if scIsHigh (k⁻¹ * ((ecdsaSigSign gen d z k).r * d + z)) then 1 else 0) := rfl
    rw [e, hs0]
    simp only [scSetB32_overflow, hb, hodd, scIsHigh_iff]

/-- The point that verification computes from an honest signature. -/
theorem ecdsaPoint_sign {d z k : Fn} (hk : k ≠ 0) (hs : ecdsaS d z k ≠ 0) :
    ecdsaPoint (d • G) z (ecdsaR k) (ecdsaS d z k) = k • G := by
  rw [ecdsaPoint_eq, smul_smul, ← add_smul]
  congr 1
  have h1 : ecdsaS d z k * k = z + ecdsaR k * d := by
    rw [ecdsaS, div_mul_cancel₀ _ hk]
  have : (ecdsaS d z k)⁻¹ * ecdsaR k * d + (ecdsaS d z k)⁻¹ * z =
      (ecdsaS d z k)⁻¹ * (ecdsaS d z k * k) := by rw [h1]; ring
  rw [this, inv_mul_cancel_left₀ hs]

theorem ecdsaValid_sign {d z k : Fn} (hk : k ≠ 0) (hr : ecdsaR k ≠ 0) (hs : ecdsaS d z k ≠ 0) :
    EcdsaValid (d • G) z (ecdsaR k) (lowS (ecdsaS d z k)) := by
  rw [ecdsaValid_lowS]
  refine ⟨hr, hs, ?_, ?_⟩
  · rw [ecdsaPoint_sign hk hs]
    exact smul_G_ne hk
  · rw [ecdsaPoint_sign hk hs, ecdsaR, ZMod.val_natCast, val_smul]

end Secp
