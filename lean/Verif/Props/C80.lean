import Verif.Proof.VerifyAll

/-!
# C80: a build with `VERIFY` does what a build without it does

A build with `VERIFY` (the tests and the fuzzers) keeps a magnitude and a flag beside every field element and
aborts when a `VERIFY_CHECK` fails.  Nothing that the other properties say about the released library carries
over to it, or the other way round, unless no check ever fails and the results are the same.  The model with the
checks is `Verif/Model/Verify.lean`; what is claimed is in `Verif/Spec/VerifyBuild.lean`.
-/

namespace Secp
open Model Model.Verify

section
attribute [local instance] safegcdInv verifyRep5

/-- 64-bit limbs: the field functions. -/
theorem C80_field_64 : FieldChecks Fe5 := fieldChecks

/-- 64-bit limbs: the point functions. -/
theorem C80_points_64 : PointChecks Fe5 := pointChecks

/-- 64-bit limbs: however many operations are strung together, and wherever the results go, no check fails, all
recorded magnitudes stay right and the limbs are those of the library as it is released. -/
theorem C80_programs_64 (prog : List Stmt) {t : Points Fe5} {s : Points (FeV Fe5)} (h : GoodPoints t s) :
    Runs (runV s prog) (GoodPoints (run t prog)) := run_ok prog h

end

section
attribute [local instance] safegcdInv32 verifyRep10

/-- 32-bit limbs: the field functions. -/
theorem C80_field_32 : FieldChecks Fe10 := fieldChecks

/-- 32-bit limbs: the point functions. -/
theorem C80_points_32 : PointChecks Fe10 := pointChecks

/-- 32-bit limbs: programs. -/
theorem C80_programs_32 (prog : List Stmt) {t : Points Fe10} {s : Points (FeV Fe10)} (h : GoodPoints t s) :
    Runs (runV s prog) (GoodPoints (run t prog)) := run_ok prog h

end

/-! ### The checks are not empty -/

/-- `SECP256K1_FE_VERIFY`, 64-bit limbs: it passes exactly if the limbs are within the recorded magnitude, or
normalized when the flag is set. -/
theorem C80_verify_64 (a : FeV Fe5) : a.verify = true ↔
    a.magnitude ≤ 32 ∧ if a.normalized then a.magnitude ≤ 1 ∧ a.fe.Norm else a.fe.Mag a.magnitude := by
  obtain ⟨f, m, nz⟩ := a
  unfold FeV.verify FeV.atMost
  cases nz
  · simp only [Bool.and_eq_true, decide_eq_true_eq, Bool.not_false, Bool.true_or, and_true, le_refl, true_and,
      Bool.false_eq_true, if_false]
    refine and_congr_right fun _ => ⟨fun h => ?_, magCheck5⟩
    simp only [FeCheck.implVerify, Bool.and_eq_true, decide_eq_true_eq, Bool.false_eq_true, if_false] at h
    obtain ⟨⟨⟨⟨⟨h0, h1⟩, h2⟩, h3⟩, h4⟩, -⟩ := h
    constructor <;> omega
  · simp only [Bool.and_eq_true, decide_eq_true_eq, Bool.not_true, Bool.false_or, le_refl, true_and, if_true,
      and_assoc]
    refine and_congr_right fun _ => ⟨fun h => ⟨h.2.1, ?_⟩, fun h => ⟨by norm_num, h.1, normCheck5 m h.2⟩⟩
    have h := h.2.2
    simp only [FeCheck.implVerify, Bool.and_eq_true, decide_eq_true_eq, if_true, Bool.not_true, Bool.false_or,
      Nat.mul_one] at h
    obtain ⟨⟨⟨⟨⟨h0, h1⟩, h2⟩, h3⟩, h4⟩, h5⟩ := h
    refine ⟨by omega, by omega, by omega, by omega, ?_⟩
    by_contra hp
    have hq : 2 ^ 256 - 2 ^ 32 - 977 ≤ f.nat := by unfold p at hp; omega
    unfold Fe5.nat at hq
    have e4 : f.n4 = 0x0FFFFFFFFFFFF := by omega
    have e3 : f.n3 = 0xFFFFFFFFFFFFF := by omega
    have e2 : f.n2 = 0xFFFFFFFFFFFFF := by omega
    have e1 : f.n1 = 0xFFFFFFFFFFFFF := by omega
    rw [e4, e3, e2, e1] at h5
    simp at h5
    rw [e4, e3, e2, e1] at hq
    omega

/-- `SECP256K1_FE_VERIFY`, 32-bit limbs. -/
theorem C80_verify_32 (a : FeV Fe10) : a.verify = true ↔
    a.magnitude ≤ 32 ∧ if a.normalized then a.magnitude ≤ 1 ∧ a.fe.Norm else a.fe.Mag a.magnitude := by
  obtain ⟨f, m, nz⟩ := a
  unfold FeV.verify FeV.atMost
  cases nz
  · simp only [Bool.and_eq_true, decide_eq_true_eq, Bool.not_false, Bool.true_or, and_true, le_refl, true_and,
      Bool.false_eq_true, if_false]
    refine and_congr_right fun _ => ⟨fun h => ?_, magCheck10⟩
    simp only [FeCheck.implVerify, Bool.and_eq_true, decide_eq_true_eq, Bool.false_eq_true, if_false] at h
    obtain ⟨⟨⟨⟨⟨⟨⟨⟨⟨⟨h0, h1⟩, h2⟩, h3⟩, h4⟩, h5⟩, h6⟩, h7⟩, h8⟩, h9⟩, -⟩ := h
    constructor <;> omega
  · simp only [Bool.and_eq_true, decide_eq_true_eq, Bool.not_true, Bool.false_or, le_refl, true_and, if_true,
      and_assoc]
    refine and_congr_right fun _ => ⟨fun h => ⟨h.2.1, ?_⟩, fun h => ⟨by norm_num, h.1, normCheck10 m h.2⟩⟩
    have h := h.2.2
    simp only [FeCheck.implVerify, Bool.and_eq_true, decide_eq_true_eq, if_true, Bool.not_true, Bool.false_or,
      Nat.mul_one] at h
    obtain ⟨⟨⟨⟨⟨⟨⟨⟨⟨⟨h0, h1⟩, h2⟩, h3⟩, h4⟩, h5⟩, h6⟩, h7⟩, h8⟩, h9⟩, hr⟩ := h
    refine ⟨by omega, by omega, by omega, by omega, by omega, by omega, by omega, by omega, by omega, ?_⟩
    by_contra hp
    have hq : 2 ^ 256 - 2 ^ 32 - 977 ≤ f.nat := by unfold p at hp; omega
    unfold Fe10.nat at hq
    have e9 : f.n9 = 0x3FFFFF := by omega
    have e8 : f.n8 = 0x3FFFFFF := by omega
    have e7 : f.n7 = 0x3FFFFFF := by omega
    have e6 : f.n6 = 0x3FFFFFF := by omega
    have e5 : f.n5 = 0x3FFFFFF := by omega
    have e4 : f.n4 = 0x3FFFFFF := by omega
    have e3 : f.n3 = 0x3FFFFFF := by omega
    have e2 : f.n2 = 0x3FFFFFF := by omega
    rw [e9, e8, e7, e6, e5, e4, e3, e2] at hr
    simp at hr
    rw [e9, e8, e7, e6, e5, e4, e3, e2] at hq
    rw [Nat.shiftRight_eq_div_pow] at hr
    omega

/-! ### Concrete cases -/

section
attribute [local instance] safegcdInv verifyRep5

/-- the generator, as a constant of a `VERIFY` build -/
def genV : Gej (FeV Fe5) := ⟨feConstV gx, feConstV gy, feConstV 1, false⟩

theorem genV_tracked : GejTracked genV := by
  have hx : FeIs (feConstV gx : FeV Fe5) _ 1 := feConst_ok (by decide +kernel)
  have hy : FeIs (feConstV gy : FeV Fe5) _ 1 := feConst_ok (by decide +kernel)
  have hz : FeIs (feConstV 1 : FeV Fe5) _ 1 := feConst_ok (by decide +kernel)
  exact ⟨hx.tr, hy.tr, hz.tr, hx.le.trans (by decide), hy.le.trans (by decide), hz.le⟩

/-- The arrays of a program that starts with the generator everywhere. -/
example (prog : List Stmt) : Runs (runV ⟨fun _ => genV, fun _ => ⟨genV.x, genV.y, false⟩⟩ prog) fun s =>
    ∀ i, GejTracked (s.jac i) := by
  have h : GoodPoints (⟨fun _ => gejErase genV, fun _ => geErase ⟨genV.x, genV.y, false⟩⟩ : Points Fe5)
      ⟨fun _ => genV, fun _ => ⟨genV.x, genV.y, false⟩⟩ :=
    ⟨fun _ => ⟨rfl, genV_tracked⟩, fun _ => ⟨rfl, genV_tracked.x, genV_tracked.y, by show 1 ≤ 4; decide, by show 1 ≤ 3; decide⟩⟩
  exact (C80_programs_64 prog h).mono fun s hs i => (hs.1 i).2

/-- Doubling the generator: the coordinates get the magnitudes 3, 3 and 1. -/
example : (gejDoubleV genV).map (fun r => (r.x.magnitude, r.y.magnitude, r.z.magnitude)) = some (3, 3, 1) := by
  decide +kernel

/-- An element whose magnitude is recorded wrongly is caught. -/
example : feSqr (⟨⟨2 ^ 54, 0, 0, 0, 0⟩, 1, false⟩ : FeV Fe5) = none := by decide +kernel

/-- A product of an element of magnitude 9 is caught. -/
example : (feMulInt (feConstV gx : FeV Fe5) 9).bind feSqr = none := by decide +kernel

/-- The condition on `rzr` matters: with the point at infinity a check fails. -/
example : gejAddVarV ({ genV with infinity := true }) genV true = none := by decide +kernel

end

end Secp
