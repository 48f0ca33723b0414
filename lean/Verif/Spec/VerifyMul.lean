import Verif.Spec.VerifyBuild
import Verif.Spec.Rep
import Verif.Model.VerifyEcmult
import Verif.Model.ComputeTable
import Verif.Model.Limb.Ellswift

/-!
# The points that the multiplication code of a `VERIFY` build is given
-/

namespace Secp.Model.Verify
open FeOps

/-- The number that the limbs of a field element stand for. -/
class Value (α : Type) where
  nat : α → ℕ

instance : Value Fe5 := ⟨Fe5.nat⟩
instance : Value Fe10 := ⟨Fe10.nat⟩

variable {α : Type} [Value α]

/-- A Jacobian point of the curve y² = x³ + 7: x = X/Z², y = Y/Z³. -/
def OnCurve (g : Gej α) : Prop :=
  g.infinity = true ∨ (((Value.nat g.z : ℕ) : Fp) ≠ 0 ∧
    ((Value.nat g.y : ℕ) : Fp) ^ 2 = ((Value.nat g.x : ℕ) : Fp) ^ 3 + 7 * ((Value.nat g.z : ℕ) : Fp) ^ 6)

/-- An affine point of the curve y² = x³ + 7. -/
def GeOnCurve (g : Ge α) : Prop :=
  g.infinity = true ∨ ((Value.nat g.y : ℕ) : Fp) ^ 2 = ((Value.nat g.x : ℕ) : Fp) ^ 3 + 7

/-- One call of `secp256k1_ecmult_gen_blind` without checks. -/
def genBlindOf [FeOps α] (ctx : GenCtxOf α) : Option (FeV α × Fn) → GenCtxOf α
  | none => genBlindReset ctx
  | some e => genBlindApply ctx (genBlindFe e.1.fe) (genBlindScalar e.2)

/-- The context after it was built with the comb table `cfg` and blinded any number of times, without checks. -/
def genHistoryOf [FeOps α] (cfg : CombCfg) (calls : List (Option (FeV α × Fn))) : GenCtxOf α :=
  calls.foldl genBlindOf (genBlindReset ⟨cfg, true, 0, geConstG, setInt 1⟩)

/-- The tables of odd multiples that a library is built with: the shipped ones, or those computed for any other window
size that ecmult.h accepts. -/
def BuildTab (t : GTab) : Prop := t = shippedTab ∨ ∃ w, 2 ≤ w ∧ w ≤ 24 ∧ t = windowTab w

/-- The x-coordinate n/d (n, if there is no d) belongs to a point of the curve. -/
def XOnCurve (n : FeV α) (d : Option (FeV α)) : Prop :=
  ∃ y : Fp, y ^ 2 = (((Value.nat n.fe : ℕ) : Fp) / (d.elim 1 fun d => ((Value.nat d.fe : ℕ) : Fp))) ^ 3 + 7

variable (α) [FeOps α] [FeMem α] [FeCheck α] [Bounds α]

/-- On points of the curve that are correctly tracked, no check of the multiplication code fails, and the result has the
limbs that a build without the checks computes. -/
structure MulChecks : Prop where
  /-- `secp256k1_ecmult_strauss_wnaf` for any number of points. -/
  strauss (t : GTab) (pts : List (Gej (FeV α) × Fn)) (ng : Option Fn) : BuildTab t →
    (∀ q ∈ pts, GejTracked q.1 ∧ OnCurve (gejErase q.1)) →
    Runs (straussWithV t pts ng) (GoodGej (straussWith t (pts.map fun q => (gejErase q.1, q.2)) ng))
  /-- `secp256k1_ecmult`. -/
  ecmult (t : GTab) (a : Gej (FeV α)) (na : Fn) (ng : Option Fn) : BuildTab t → GejTracked a → OnCurve (gejErase a) →
    Runs (ecmultWithV t a na ng) (GoodGej (ecmultWith t (gejErase a) na ng))
  /-- `secp256k1_ecmult_const`. -/
  const (a : Ge (FeV α)) (q : Fn) : GeTracked a → GeOnCurve (geErase a) →
    Runs (ecmultConstV a q) (GoodGej (ecmultConst (geErase a) q))
  /-- `secp256k1_ecmult_const_xonly`: the scalar and the denominator are not zero, and x belongs to a point if the caller
  says so. -/
  xonly (n : FeV α) (d : Option (FeV α)) (q : Fn) (known : Bool) : Tracked n → n.magnitude ≤ 8 →
    (∀ d' ∈ d, Tracked d' ∧ d'.magnitude ≤ 8 ∧ ((Value.nat d'.fe : ℕ) : Fp) ≠ 0) → q ≠ 0 →
    (known = true → XOnCurve n d) →
    Runs (ecmultConstXonlyV n d q known) fun r =>
      Option.Rel (fun r f => Good f 1 r) r (Limb.ecmultConstXonly n.fe (d.map (·.fe)) q known)
  /-- `secp256k1_ecmult_gen`, with any table of the generator that the library can be built with, after any history of
  blinding. -/
  gen (v : GenCtxOf (FeV α)) (calls : List (Option (FeV α × Fn))) (k : Fn) : v.cfg.Build →
    (∀ e ∈ calls, ∀ q ∈ e, Tracked q.1 ∧ q.1.magnitude ≤ 1) →
    Runs (genHistoryV v calls >>= fun c => ecmultGenV c k) (GoodGej (ecmultGen (genHistoryOf v.cfg calls) k))

end Secp.Model.Verify
