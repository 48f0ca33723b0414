import Verif.Model.Context
import Verif.Proof.ComputeTableOk
import Verif.Proof.HashEval

/-! # Every live context satisfies the blinding invariant -/

namespace Secp
open Model

theorem preallocatedCreate_ok {junk ctx : Ctx} {flags : UInt32}
    (hc : junk.gen.cfg.Build)
    (h : (contextPreallocatedCreate junk flags).val = some ctx) : GenCtxOk ctx.gen := by
  unfold contextPreallocatedCreate at h
  simp only at h
  split at h
  · cases h
  · have h := Option.some.inj h
    subst h
    exact ecmultGenContextBuild_ok (hc.valid)

theorem Model.LiveCtx.ok {ctx : Ctx} (h : LiveCtx ctx) : GenCtxOk ctx.gen := by
  induction h with
  | create hc h => exact preallocatedCreate_ok hc h
  | preallocatedCreate hc h => exact preallocatedCreate_ok hc h
  | clone h e ih =>
    unfold contextClone contextPreallocatedClone at e
    split at e
    · cases e
    · rename_i hp
      simp only [Bool.not_true, Bool.false_eq_true, if_false, hp] at e
      exact Option.some.inj e ▸ ih
  | preallocatedClone h e ih =>
    unfold contextPreallocatedClone at e
    simp only [Bool.not_true, Bool.false_eq_true, if_false] at e
    split at e
    · cases e
    · exact Option.some.inj e ▸ ih
  | randomize h seed ih =>
    unfold contextRandomize
    split
    · exact ih
    · split
      · exact ecmultGenBlind_ok ih seed
      · exact ih
  | setIllegal h fn data ih => exact ih
  | setError h fn data ih => exact ih

end Secp
