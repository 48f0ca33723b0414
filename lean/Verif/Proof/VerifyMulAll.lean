import Verif.Proof.VerifyConst
import Verif.Proof.VerifyGen
import Verif.Proof.VerifyAll
import Verif.Props.C75

/-!
# No check of the multiplication code fails
-/

namespace Secp.Model.Verify
open Secp FeOps LimbRep

theorem BuildTab.canonical {t : GTab} (h : BuildTab t) : TabCanonical t := by
  rcases h with rfl | ⟨w, h2, h24, rfl⟩
  · exact ⟨by decide, by decide, fun i hi => ⟨(preG_affine hi).1, (preG_affine hi).2.1⟩,
      fun i hi => ⟨(preG128_affine hi).1, (preG128_affine hi).2.1⟩⟩
  · unfold windowTab
    generalize hW : (if w < 15 then 15 else w) = W
    have hW1 : w ≤ W ∧ W ≤ 24 := by subst hW; split <;> omega
    have h := fun j (hj : j < 2 ^ (W - 2)) =>
      C75_two_tables (w := W) (by omega) geConstG_rep G_ne_zero hj
    have hle : 2 ^ (w - 2) ≤ 2 ^ (W - 2) := Nat.pow_le_pow_right (by norm_num) (by omega)
    generalize ecmultComputeTwoTables W geConstG = t at h
    exact ⟨h2, h24, fun m hm => ⟨(h m (lt_of_lt_of_le hm hle)).1.1, (h m (lt_of_lt_of_le hm hle)).1.2.1⟩,
      fun m hm => ⟨(h m (lt_of_lt_of_le hm hle)).2.1, (h m (lt_of_lt_of_le hm hle)).2.2.1⟩⟩

variable {α : Type} [FeOps α] [FeMem α] [LimbRep α] [FeCheck α] [Bounds α] [VerifyRep α] [Value α] [VerifyMul α]

theorem mulChecks (one : (feConst 1 : α) = setInt 1) : MulChecks α where
  strauss t pts ng ht h := (straussWithV_ok ht.canonical (fun q hq => ⟨(h q hq).1, (h q hq).2.stands (h q hq).1⟩) ng).mono
    fun _ hr => hr.good
  ecmult t a na ng ht ha hc := (straussWithV_ok ht.canonical (pts := [(a, na)]) (fun q hq => by
    rw [List.mem_singleton] at hq
    subst hq
    exact ⟨ha, hc.stands ha⟩) ng).mono fun _ hr => hr.good
  const a q ha hc := (ecmultConstV_ok ha (hc.stands ha) q).mono fun _ hr => hr.good
  xonly n d q known hn hm hd hq hk := by
    have e : denOf d = d.elim 1 fun d => ((Value.nat d.fe : ℕ) : Fp) := by cases d <;> rfl
    have h0 : denOf d ≠ 0 := by
      rw [e]
      cases d with
      | none => exact one_ne_zero
      | some d => exact (hd d rfl).2.2
    refine (ecmultConstXonlyV_ok (x := n) ⟨rfl, hn, hm⟩ (fun d' h => ⟨rfl, (hd d' h).1, (hd d' h).2.1⟩) h0 hq
      (fun h => by rw [e]; exact hk h)).mono fun r hr => ?_
    generalize Limb.ecmultConstXonly n.fe (d.map (·.fe)) q known = F at hr ⊢
    cases hr with
    | none => exact .none
    | some h => exact .some h.good
  gen v calls k hb h :=
    (genHistoryV_ok one hb.valid hb.stored (build_canonical hb) (fun e he q hq => ⟨rfl, (h e he q hq).1, (h e he q hq).2⟩)).bind
      fun _ hr => (ecmultGenV_ok hr.1 hr.2.usable k).mono fun _ hr => hr.good

/-! ## the two field implementations -/

section
attribute [local instance] safegcdInv

theorem verifyMul5 : VerifyMul Fe5 where
  storage {k} hk := by
    obtain ⟨g, g0, g1, g2, g3⟩ := Fe5.storageConst_spec (lt_trans hk p_lt_256)
    obtain ⟨h, h0, h1, h2, h3, h4⟩ := Fe5.fromStorage_spec g0 g1 g2 g3
    exact (⟨h0, h1, h2, h3, by rw [h, g]; exact hk⟩ : Fe5.Norm (Fe5.fromStorage (Fe5.storageConst k)))
  value {a m v} h := (h : a.Rep m v).val.symm

end

section
attribute [local instance] safegcdInv32

theorem verifyMul10 : VerifyMul Fe10 where
  storage {k} hk := by
    obtain ⟨g, gf⟩ := Fe10.storageConst_spec (lt_trans hk p_lt_256)
    obtain ⟨h, hl, h9⟩ := Fe10.fromStorage_spec gf
    exact (hl.norm (by rw [h, g]; exact hk) : Fe10.Norm (Fe10.fromStorage (Fe10.storageConst k)))
  value {a m v} h := (h : a.Rep m v).val.symm

end

end Secp.Model.Verify
