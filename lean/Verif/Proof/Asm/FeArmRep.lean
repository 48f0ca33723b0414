import Verif.Model.Asm.FeArm
import Verif.Proof.MemRep
import Verif.Props.C67
import Verif.Props.C73

/-!
# The 32-bit field with the ARM assembly is a field on limbs
-/

namespace Secp.Model.FeArm
open Secp FeOps

attribute [local instance] safegcdInv32

variable [Arm.Caller]

theorem mul_fe {a b : FeArm} {v w : Fp} (ha : a.fe.Rep 8 v) (hb : b.fe.Rep 8 w) :
    (mul a b).fe = Fe10.mul a.fe b.fe := by
  have h := (C73_mul (v := v) (w := w) (Arm.Caller.mul_call ha.mag hb.mag)
    (by rw [Arm.Caller.mul_a ha.mag hb.mag]; exact ha) (by rw [Arm.Caller.mul_b ha.mag hb.mag]; exact hb)).2.1
  rw [Arm.Caller.mul_a ha.mag hb.mag, Arm.Caller.mul_b ha.mag hb.mag] at h
  exact h

theorem sqr_fe {a : FeArm} {v : Fp} (ha : a.fe.Rep 8 v) : (sqr a).fe = Fe10.sqr a.fe := by
  have h := (C73_sqr (v := v) (Arm.Caller.sqr_call ha.mag) (by rw [Arm.Caller.sqr_a ha.mag]; exact ha)).2.1
  rw [Arm.Caller.sqr_a ha.mag] at h
  exact h

instance instLimbRep : LimbRep FeArm where
  Rep a m v := a.fe.Rep m v
  mono := Fe10.Rep.mono
  mul {a b v w} h g := by
    change (mul a b).fe.Rep 1 _
    rw [mul_fe h g]
    exact C64_mul h g
  sqr {a v} h := by
    change (sqr a).fe.Rep 1 _
    rw [sqr_fe h]
    exact (LimbRep.sqr (α := Fe10) h)
  add hm h g := LimbRep.add (α := Fe10) hm h g
  negate hm h := LimbRep.negate (α := Fe10) hm h
  mulInt hm h := LimbRep.mulInt (α := Fe10) hm h
  addInt hm hk h := LimbRep.addInt (α := Fe10) hm hk h
  half hm h := LimbRep.half (α := Fe10) hm h
  weak h := LimbRep.weak (α := Fe10) h
  normalize h := LimbRep.normalize (α := Fe10) h
  toZero h := LimbRep.toZero (α := Fe10) h
  setInt hk := LimbRep.setInt (α := Fe10) hk
  cmov {a b v w} flag h g := by
    have e : FeOps.cmov a.fe b.fe flag = if flag then b.fe else a.fe := LimbRep.cmov (α := Fe10) flag h g
    change FeArm.mk (FeOps.cmov a.fe b.fe flag) = _
    rw [e]
    cases flag <;> rfl
  feConst h := LimbRep.feConst (α := Fe10) h
  ofStorage h := LimbRep.ofStorage (α := Fe10) h

theorem inv_fe (x : FeArm) : (FeOps.inv x).fe = (Fe10.inv? x.fe).getD ⟨0, 0, 0, 0, 0, 0, 0, 0, 0, 0⟩ := by
  with_reducible_and_instances rfl

theorem inv_rep {x : FeArm} {v : Fp} (h : x.fe.Rep 8 v) : (FeOps.inv x).fe.Rep 1 v⁻¹ := by
  rw [inv_fe]
  have := @limbInv32_of Fe10.inv? C66_fe_inv x.fe v h
  exact this

theorem invVar_rep {x : FeArm} {v : Fp} (h : x.fe.Rep 8 v) : (FeOps.invVar x).fe.Rep 1 v⁻¹ :=
  limbInv32_of (f := Fe10.invVar? 25) (fun h g => C66_fe_inv_var h g (le_refl 25)) h

theorem inv_ok : LimbInvOk FeArm :=
  LimbInvOk.mk (α := FeArm) (fun h => inv_rep h) (fun h => invVar_rep h)

theorem isSquareVar_fe {a : FeArm} {v : Fp} (h : a.fe.Rep 31 v) : isSquareVar? a = Fe10.isSquareVar? a.fe := by
  obtain ⟨h1, h2, h3⟩ := C64_normalize (.inl h.mag) h.val
  have hr : Fe10.Rep a.fe.normalize 1 v := ⟨h1.mag, by rw [h2]; exact ZMod.natCast_zmod_val v⟩
  have e : (FeOps.sqrt (⟨a.fe.normalize⟩ : FeArm)).2 = (FeOps.sqrt a.fe.normalize).2 :=
    (LimbRep.Rep.sqrt (α := FeArm) (a := ⟨a.fe.normalize⟩) (m := 1) (v := v) hr).2.trans
      (LimbRep.Rep.sqrt (α := Fe10) (m := 1) (v := v) hr).2.symm
  unfold isSquareVar? Fe10.isSquareVar?
  rw [h3]
  dsimp only
  rw [e]

theorem memRep : Nonempty (MemRep FeArm) := by
  obtain ⟨M⟩ := Fe10.memRep safegcdInv32_ok
  exact ⟨{
    Norm := fun a v => M.Norm a.fe v, inv := inv_ok
    rep := fun h => M.rep h
    normalize := fun h => M.normalize h
    isZero := fun h => M.isZero h
    isOdd := fun h => M.isOdd h
    cmpVar := fun h g => M.cmpVar h g
    getB32 := fun h => M.getB32 h
    toMem := fun h => M.toMem h
    fromMem := fun h => M.fromMem h
    fromMemNorm := fun h g => M.fromMemNorm h g
    fromMemZero := fun h => M.fromMemZero h
    setB32Mod := fun h => M.setB32Mod h
    setB32Limit := fun h => M.setB32Limit h
    setB32LimitNorm := fun h g => M.setB32LimitNorm h g
    feConst := fun h => M.feConst h
    isSquareVar := fun {a v} h => by
      change (isSquareVar? a).getD false = _
      rw [isSquareVar_fe h]
      exact M.isSquareVar h }⟩

end Secp.Model.FeArm
