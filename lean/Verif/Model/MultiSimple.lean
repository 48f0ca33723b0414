import Verif.Model.GroupX

/-!
# Model of `secp256k1_ecmult_multi_simple_var`, `/repo/src/ecmult_impl.h`
-/

namespace Secp.Model

open FeOps

variable {α : Type} [FeOps α]

/-- A callback `secp256k1_ecmult_multi_callback`, ecmult.h:44: from the index, the scalar and the
point, or `none` for a return value 0. -/
abbrev MultiCallbackOf (α : Type) := Nat → Option (Fn × Ge α)

/-- Callbacks over field elements by value. -/
abbrev MultiCallback := MultiCallbackOf Fp

/-- The loop at ecmult_impl.h:771-782: `k` points to go, the next one is `idx`. -/
def multiSimpleLoop (cb : MultiCallbackOf α) : Nat → Nat → Gej α → Option (Gej α)
  | 0, _, r => some r
  | k + 1, idx, r =>
    match cb idx with
    | none => none
    | some (scalar, point) =>
      let tmpj := ecmult (gejSetGe point) scalar none
      multiSimpleLoop cb k (idx + 1) (gejAddVar r tmpj).1

/-- `secp256k1_ecmult_multi_simple_var`, ecmult_impl.h:763-784: `none` for a return value 0. -/
def ecmultMultiSimpleVar (inpGSc : Option Fn) (cb : MultiCallbackOf α) (nPoints : Nat) :
    Option (Gej α) :=
  multiSimpleLoop cb nPoints 0 (ecmult gejInfinity 0 inpGSc)

/-- `secp256k1_ecmult_multi_var` without a scratch space, ecmult_impl.h:807-823. -/
def ecmultMultiVarNull (inpGSc : Option Fn) (cb : MultiCallbackOf α) (n : Nat) : Option (Gej α) :=
  if inpGSc = none ∧ n = 0 then some gejInfinity
  else if n = 0 then some (ecmult gejInfinity 0 inpGSc)
  else ecmultMultiSimpleVar inpGSc cb n

end Secp.Model
