import Verif.Proof.VerifyInst

/-!
# All checks of a `VERIFY` build, and programs
-/

namespace Secp.Model.Verify
open Secp FeOps LimbRep

variable {α : Type} [FeOps α] [FeMem α] [LimbRep α] [FeCheck α] [Bounds α]

omit [FeOps α] [FeMem α] [LimbRep α] [FeCheck α] in
theorem self {a : FeV α} (h : Tracked a) : FeIs a a.fe a.magnitude := ⟨rfl, h, le_rfl⟩

omit [FeOps α] [FeMem α] [LimbRep α] [FeCheck α] in
theorem FeIs.good {r : FeV α} {f : α} {m : ℕ} (h : FeIs r f m) : Good f m r := ⟨h.fe, h.tr, h.le⟩

omit [FeOps α] [FeMem α] [LimbRep α] [FeCheck α] in
theorem GeIs.good {r : Ge (FeV α)} {g : Ge α} (h : GeIs r g) : GoodGe g r := ⟨h.eq, h.tr⟩

omit [FeOps α] [FeMem α] [LimbRep α] [FeCheck α] in
theorem GejIs.good {r : Gej (FeV α)} {g : Gej α} (h : GejIs r g) : GoodGej g r := ⟨h.eq, h.tr⟩

omit [FeOps α] [FeMem α] [LimbRep α] [FeCheck α] in
theorem QIs.good {q : Option (FeV α)} {f : Option α} {rzr : Bool} (h : QIs q f rzr) : GoodRzr f rzr q := by
  unfold GoodRzr
  cases rzr
  · exact h.1 rfl
  · obtain ⟨r, h1, h2, h3⟩ := h.2 rfl
    exact ⟨r, h1, h2, h3.symm⟩

variable [VerifyRep α]

theorem fieldChecks : FieldChecks α where
  verify _ h := h.verify
  normalize _ h hm := (feNormalize_ok (self h) hm).mono fun _ hr => ⟨hr.1.good, hr.2⟩
  normalizeWeak _ h hm := (feNormalizeWeak_ok (self h) hm).mono fun _ hr => hr.good
  normalizesToZero _ h := feNormalizesToZero_ok (self h)
  setInt k hk := (feSetInt_ok k hk).mono fun _ hr => hr.good
  addInt _ k h hk hm := (feAddInt_ok (self h) k (by omega) hk).mono fun _ hr => hr.good
  negate _ m h hm hk := (feNegate_ok (self h) m hm hk).mono fun _ hr => hr.good
  mulInt _ k h hk hm := (feMulInt_ok (self h) k hm hk).mono fun _ hr => hr.good
  add _ _ h g hm := (feAdd_ok (self h) (self g) hm).mono fun _ hr => hr.good
  mul _ _ h g hm hk := (feMul_ok (self h) (self g) hm hk).mono fun _ hr => hr.good
  sqr _ h hm := (feSqr_ok (self h) hm).mono fun _ hr => hr.good
  cmov _ _ flag h g := (feCmov_ok (self h) (self g) flag).mono fun _ hr => hr.good
  half _ h hm := (feHalf_ok (self h) (by omega)).mono fun _ hr => hr.good
  inv _ h hm := (feInv_ok (self h) hm).mono fun _ hr => hr.good
  invVar _ h hm := (feInvVar_ok (self h) hm).mono fun _ hr => hr.good
  equal _ _ h g hm hk := feEqual_ok (self h) (self g) hm hk
  sqrt _ h hm := (feSqrt_ok (self h) hm).mono fun _ hr => ⟨hr.1.good, hr.2⟩
  isOdd _ h hn := feIsOddV_ok (self h) hn
  isSquareVar _ h hm := feIsSquareVarV_ok (self h) hm

theorem pointChecks : PointChecks α where
  verify _ h := gejVerify_ok h
  verifyGe _ h := geVerify_ok h
  setGejZinv _ _ h g hm hi := (geSetGejZinvV_ok h (self g) hi hm).mono fun _ hr => hr.good
  setGeZinv _ _ h g hm hi := (geSetGeZinvV_ok h (self g) hi hm).mono fun _ hr => hr.good
  setXY _ _ h g hm hk := (geSetXYV_ok (self h) (self g) hm hk).mono fun _ hr => hr.good
  geNeg _ h := (geNegV_ok h).mono fun _ hr => hr.good
  gejNeg _ h := (gejNegV_ok h).mono fun _ hr => hr.good
  gejInfinity := gejInfinityV_ok.mono fun _ hr => hr.good
  geInfinity := geInfinityV_ok.mono fun _ hr => hr.good
  setGej _ h := (geSetGejV_ok h).mono fun _ hr => ⟨hr.1.good, hr.2.good⟩
  setGejVar _ h := (geSetGejVarV_ok h).mono fun _ hr => ⟨hr.1.good, hr.2.good⟩
  setGe _ h := (gejSetGeV_ok h).mono fun _ hr => hr.good
  isValidVar _ h := geIsValidVarV_ok h
  double _ h := (gejDoubleV_ok h).mono fun _ hr => hr.good
  doubleVar _ rzr h := (gejDoubleVarV_ok h rzr).mono fun _ hr => ⟨hr.1.good, hr.2.good⟩
  addVar _ _ rzr h g hr := (gejAddVarV_ok h g rzr hr).mono fun _ hr => ⟨hr.1.good, hr.2.good⟩
  addGeVar _ _ rzr h g hr := (gejAddGeVarV_ok h g rzr hr).mono fun _ hr => ⟨hr.1.good, hr.2.good⟩
  addZinvVar _ _ _ h g hz hm := (gejAddZinvVarV_ok h g (self hz) hm).mono fun _ hr => hr.good
  addGe _ _ h g hi := (gejAddGeV_ok h g hi).mono fun _ hr => hr.good
  rescale _ _ h g hm h0 := (gejRescaleV_ok h (self g) h0 hm).mono fun _ hr => hr.good
  cmov _ _ flag h g := (gejCmovV_ok h g flag).mono fun _ hr => hr.good
  eqVar _ _ h g := gejEqVarV_ok h g
  eqGeVar _ _ h g := gejEqGeVarV_ok h g
  geEqVar _ _ h g := geEqVarV_ok h g
  eqXVar _ _ h hm g hi := gejEqXVarV_ok (self h) g hi hm
  mulLambda _ h := (geMulLambdaV_ok h).mono fun _ hr => hr.good
  setXoVar _ odd h hm := (geSetXoVarV_ok (self h) odd hm).mono fun _ hr => ⟨hr.1.good, hr.2⟩
  xOnCurve _ h hm := geXOnCurveVarV_ok (self h) hm
  xFracOnCurve _ _ h g hm hk h0 := geXFracOnCurveVarV_ok (self h) (self g) h0 hm hk

section
omit [FeOps α] [FeMem α] [LimbRep α] [FeCheck α] [VerifyRep α]

theorem GoodPoints.setJ {t : Points α} {s : Points (FeV α)} (h : GoodPoints t s) (d : ℕ) {g : Gej α}
    {r : Gej (FeV α)} (hr : GejIs r g) : GoodPoints (t.setJ d g) (s.setJ d r) := by
  refine ⟨fun i => ?_, h.2⟩
  by_cases e : i = d
  · subst e
    simp only [Points.setJ, Function.update_self]
    exact hr.good
  · simp only [Points.setJ, Function.update_of_ne e]
    exact h.1 i

theorem GoodPoints.setA {t : Points α} {s : Points (FeV α)} (h : GoodPoints t s) (d : ℕ) {g : Ge α}
    {r : Ge (FeV α)} (hr : GeIs r g) : GoodPoints (t.setA d g) (s.setA d r) := by
  refine ⟨h.1, fun i => ?_⟩
  by_cases e : i = d
  · subst e
    simp only [Points.setA, Function.update_self]
    exact hr.good
  · simp only [Points.setA, Function.update_of_ne e]
    exact h.2 i
end

theorem step_ok {t : Points α} {s : Points (FeV α)} (h : GoodPoints t s) (c : Stmt) :
    Runs (stepV s c) (GoodPoints (step t c)) := by
  cases c with
  | infinity d => exact gejInfinityV_ok.map _ fun r hr => h.setJ d hr
  | double d a => exact (gejDoubleV_ok (h.1 a).2).map _ fun r hr => h.setJ d (by rwa [(h.1 a).1] at hr)
  | add d a b =>
    exact (gejAddVarV_ok (h.1 a).2 (h.1 b).2 false fun _ => rfl).map _ fun r hr =>
      h.setJ d (by have := hr.1; rwa [(h.1 a).1, (h.1 b).1] at this)
  | addGe d a b =>
    exact (gejAddGeVarV_ok (h.1 a).2 (h.2 b).2 false fun _ => rfl).map _ fun r hr =>
      h.setJ d (by have := hr.1; rwa [(h.1 a).1, (h.2 b).1] at this)
  | neg d a => exact (gejNegV_ok (h.1 a).2).map _ fun r hr => h.setJ d (by rwa [(h.1 a).1] at hr)
  | cmov d a flag =>
    exact (gejCmovV_ok (h.1 d).2 (h.1 a).2 flag).map _ fun r hr => h.setJ d (by rwa [(h.1 a).1, (h.1 d).1] at hr)
  | toAffine d a =>
    exact (geSetGejV_ok (h.1 a).2).map _ fun r hr => by
      rw [(h.1 a).1] at hr
      exact (h.setJ a hr.2).setA d hr.1
  | ofAffine d a => exact (gejSetGeV_ok (h.2 a).2).map _ fun r hr => h.setJ d (by rwa [(h.2 a).1] at hr)
  | affineNeg d a => exact (geNegV_ok (h.2 a).2).map _ fun r hr => h.setA d (by rwa [(h.2 a).1] at hr)
  | mulLambda d a => exact (geMulLambdaV_ok (h.2 a).2).map _ fun r hr => h.setA d (by rwa [(h.2 a).1] at hr)
  | addGeConst d a b =>
    have e : (t.aff b).infinity = (s.aff b).infinity := by rw [← (h.2 b).1]; rfl
    unfold stepV step
    dsimp only
    rw [e]
    cases hi : (s.aff b).infinity
    · exact (gejAddGeV_ok (h.1 a).2 (h.2 b).2 hi).map _ fun r hr => h.setJ d (by rwa [(h.1 a).1, (h.2 b).1] at hr)
    · exact Runs.some h

theorem run_ok (prog : List Stmt) : ∀ {t : Points α} {s : Points (FeV α)}, GoodPoints t s →
    Runs (runV s prog) (GoodPoints (run t prog)) := by
  induction prog with
  | nil => exact fun h => Runs.some h
  | cons c prog ih => exact fun h => (step_ok h c).bind fun r hr => ih hr

end Secp.Model.Verify
