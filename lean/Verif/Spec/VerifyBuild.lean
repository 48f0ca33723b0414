import Verif.Model.Verify
import Verif.Model.Limb.Ellswift
import Verif.Spec.Limbs
import Verif.Spec.Limbs10

/-!
# What the recorded magnitudes of a `VERIFY` build mean (`/repo/src/field_5x52.h:12-33`, `field_10x26.h:13-35`)
-/

namespace Secp.Model.Verify

/-- The documented bounds on the limbs of a field implementation. -/
class Bounds (α : Type) where
  /-- magnitude at most `m` -/
  Mag : α → ℕ → Prop
  /-- normalized -/
  Norm : α → Prop

instance : Bounds Fe5 := ⟨Fe5.Mag, Fe5.Norm⟩
instance : Bounds Fe10 := ⟨Fe10.Mag, Fe10.Norm⟩

variable {α : Type} [Bounds α]

/-- The limbs are within the recorded magnitude, and normalized if the flag says so. -/
structure Tracked (a : FeV α) : Prop where
  le : a.magnitude ≤ 32
  mag : Bounds.Mag a.fe a.magnitude
  norm : a.normalized = true → a.magnitude ≤ 1 ∧ Bounds.Norm a.fe

/-- An affine point within the magnitudes of group.h:49-50; it need not be on the curve. -/
structure GeTracked (a : Ge (FeV α)) : Prop where
  x : Tracked a.x
  y : Tracked a.y
  xm : a.x.magnitude ≤ 4
  ym : a.y.magnitude ≤ 3

/-- A Jacobian point within the magnitudes of group.h:51-53; it need not be on the curve. -/
structure GejTracked (a : Gej (FeV α)) : Prop where
  x : Tracked a.x
  y : Tracked a.y
  z : Tracked a.z
  xm : a.x.magnitude ≤ 4
  ym : a.y.magnitude ≤ 4
  zm : a.z.magnitude ≤ 1

/-- The point without the fields that only a `VERIFY` build has. -/
def geErase (a : Ge (FeV α)) : Ge α := ⟨a.x.fe, a.y.fe, a.infinity⟩

/-- The point without the fields that only a `VERIFY` build has. -/
def gejErase (a : Gej (FeV α)) : Gej α := ⟨a.x.fe, a.y.fe, a.z.fe, a.infinity⟩

/-- The computation is not aborted, and its result has the property `Q`. -/
def Runs {β : Type} (x : Option β) (Q : β → Prop) : Prop := ∃ r, x = some r ∧ Q r

/-- `r` is a correctly tracked copy of the limbs `f`, of magnitude at most `m`. -/
def Good (f : α) (m : ℕ) (r : FeV α) : Prop := r.fe = f ∧ Tracked r ∧ r.magnitude ≤ m

/-- `r` is a correctly tracked copy of the point `g`. -/
def GoodGe (g : Ge α) (r : Ge (FeV α)) : Prop := geErase r = g ∧ GeTracked r

/-- `r` is a correctly tracked copy of the point `g`. -/
def GoodGej (g : Gej α) (r : Gej (FeV α)) : Prop := gejErase r = g ∧ GejTracked r

/-- What a function leaves in `*rzr`: nothing if the pointer is NULL, else the element `q`. -/
def GoodRzr (q : Option α) (rzr : Bool) (r : Option (FeV α)) : Prop :=
  if rzr then ∃ x, r = some x ∧ Tracked x ∧ q = some x.fe else r = none

variable (α) [FeOps α] [FeMem α] [FeCheck α]

/-- On correctly tracked elements within the limits that `/repo/src/field.h:102-280` documents, no check of the
field functions fails, the new magnitude and flag are right, and the limbs are those of a build without the
checks. -/
structure FieldChecks : Prop where
  verify (a : FeV α) : Tracked a → a.verify = true
  normalize (a : FeV α) : Tracked a → a.magnitude ≤ 31 →
    Runs (feNormalize a) fun r => Good (FeOps.normalize a.fe) 1 r ∧ r.normalized = true
  normalizeWeak (a : FeV α) : Tracked a → a.magnitude ≤ 31 →
    Runs (feNormalizeWeak a) (Good (FeOps.normalizeWeak a.fe) 1)
  normalizesToZero (a : FeV α) : Tracked a →
    Runs (feNormalizesToZero a) (· = FeOps.normalizesToZero a.fe)
  setInt (k : ℕ) : k ≤ 0x7FFF → Runs (feSetInt k : Option (FeV α)) (Good (FeOps.setInt k) (if k = 0 then 0 else 1))
  addInt (a : FeV α) (k : ℕ) : Tracked a → k ≤ 0x7FFF → a.magnitude + 1 ≤ 32 →
    Runs (feAddInt a k) (Good (FeOps.addInt a.fe k) (a.magnitude + 1))
  negate (a : FeV α) (m : ℕ) : Tracked a → a.magnitude ≤ m → m ≤ 31 →
    Runs (feNegate a m) (Good (FeOps.negate a.fe m) (m + 1))
  mulInt (a : FeV α) (k : ℕ) : Tracked a → k ≤ 32 → a.magnitude * k ≤ 32 →
    Runs (feMulInt a k) (Good (FeOps.mulInt a.fe k) (a.magnitude * k))
  add (a b : FeV α) : Tracked a → Tracked b → a.magnitude + b.magnitude ≤ 32 →
    Runs (feAdd a b) (Good (FeOps.add a.fe b.fe) (a.magnitude + b.magnitude))
  mul (a b : FeV α) : Tracked a → Tracked b → a.magnitude ≤ 8 → b.magnitude ≤ 8 →
    Runs (feMul a b) (Good (FeOps.mul a.fe b.fe) 1)
  sqr (a : FeV α) : Tracked a → a.magnitude ≤ 8 → Runs (feSqr a) (Good (FeOps.sqr a.fe) 1)
  cmov (a b : FeV α) (flag : Bool) : Tracked a → Tracked b →
    Runs (feCmov a b flag) (Good (FeOps.cmov a.fe b.fe flag) (max a.magnitude b.magnitude))
  half (a : FeV α) : Tracked a → a.magnitude < 32 → Runs (feHalf a) (Good (FeOps.half a.fe) (a.magnitude / 2 + 1))
  inv (a : FeV α) : Tracked a → a.magnitude ≤ 8 → Runs (feInv a) (Good (FeOps.inv a.fe) 1)
  invVar (a : FeV α) : Tracked a → a.magnitude ≤ 8 → Runs (feInvVar a) (Good (FeOps.invVar a.fe) 1)
  equal (a b : FeV α) : Tracked a → Tracked b → a.magnitude ≤ 1 → b.magnitude ≤ 30 →
    Runs (feEqual a b) (· = FeOps.equal a.fe b.fe)
  sqrt (a : FeV α) : Tracked a → a.magnitude ≤ 8 →
    Runs (feSqrt a) fun r => Good (FeOps.sqrt a.fe).1 1 r.1 ∧ r.2 = (FeOps.sqrt a.fe).2
  isOdd (a : FeV α) : Tracked a → a.normalized = true → Runs (feIsOddV a) (· = FeMem.isOdd a.fe)
  isSquareVar (a : FeV α) : Tracked a → a.magnitude ≤ 31 → Runs (feIsSquareVarV a) (· = FeMem.isSquareVar a.fe)

/-- On correctly tracked points, on the curve or not, no check of the point functions fails, the result is
correctly tracked, and it is the one of a build without the checks.  The conditions are the documented ones: a
point that is not the point at infinity, a nonzero factor, a NULL pointer. -/
structure PointChecks : Prop where
  verify (a : Gej (FeV α)) : GejTracked a → gejVerify a = true
  verifyGe (a : Ge (FeV α)) : GeTracked a → geVerify a = true
  setGejZinv (a : Gej (FeV α)) (zi : FeV α) : GejTracked a → Tracked zi → zi.magnitude ≤ 8 → a.infinity = false →
    Runs (geSetGejZinvV a zi) (GoodGe (Model.geSetGejZinv (gejErase a) zi.fe))
  setGeZinv (a : Ge (FeV α)) (zi : FeV α) : GeTracked a → Tracked zi → zi.magnitude ≤ 8 → a.infinity = false →
    Runs (geSetGeZinvV a zi) (GoodGe (Model.geSetGeZinv (geErase a) zi.fe))
  setXY (x y : FeV α) : Tracked x → Tracked y → x.magnitude ≤ 4 → y.magnitude ≤ 3 →
    Runs (geSetXYV x y) (GoodGe (Model.geSetXY x.fe y.fe))
  geNeg (a : Ge (FeV α)) : GeTracked a → Runs (geNegV a) (GoodGe (Model.geNeg (geErase a)))
  gejNeg (a : Gej (FeV α)) : GejTracked a → Runs (gejNegV a) (GoodGej (Model.gejNeg (gejErase a)))
  gejInfinity : Runs (gejInfinityV : Option (Gej (FeV α))) (GoodGej Model.gejInfinity)
  geInfinity : Runs (geInfinityV : Option (Ge (FeV α))) (GoodGe Model.geInfinity)
  setGej (a : Gej (FeV α)) : GejTracked a →
    Runs (geSetGejV a) fun r => GoodGe (Model.geSetGej (gejErase a)) r.1 ∧
      GoodGej (Model.gejSetGe (Model.geSetGej (gejErase a))) r.2
  setGejVar (a : Gej (FeV α)) : GejTracked a →
    Runs (geSetGejVarV a) fun r => GoodGe (Model.geSetGejVar (gejErase a)) r.1 ∧
      GoodGej (if a.infinity then gejErase a else Model.gejSetGe (Model.geSetGejVar (gejErase a))) r.2
  setGe (a : Ge (FeV α)) : GeTracked a → Runs (gejSetGeV a) (GoodGej (Model.gejSetGe (geErase a)))
  isValidVar (a : Ge (FeV α)) : GeTracked a → Runs (geIsValidVarV a) (· = Model.geIsValidVar (geErase a))
  double (a : Gej (FeV α)) : GejTracked a → Runs (gejDoubleV a) (GoodGej (Model.gejDouble (gejErase a)))
  doubleVar (a : Gej (FeV α)) (rzr : Bool) : GejTracked a →
    Runs (gejDoubleVarV a rzr) fun r => GoodGej (Model.gejDoubleVar (gejErase a)).1 r.1 ∧
      GoodRzr (Model.gejDoubleVar (gejErase a)).2 rzr r.2
  addVar (a b : Gej (FeV α)) (rzr : Bool) : GejTracked a → GejTracked b → (a.infinity = true → rzr = false) →
    Runs (gejAddVarV a b rzr) fun r => GoodGej (Model.gejAddVar (gejErase a) (gejErase b)).1 r.1 ∧
      GoodRzr (Model.gejAddVar (gejErase a) (gejErase b)).2 rzr r.2
  addGeVar (a : Gej (FeV α)) (b : Ge (FeV α)) (rzr : Bool) : GejTracked a → GeTracked b →
    (a.infinity = true → rzr = false) →
    Runs (gejAddGeVarV a b rzr) fun r => GoodGej (Model.gejAddGeVar (gejErase a) (geErase b)).1 r.1 ∧
      GoodRzr (Model.gejAddGeVar (gejErase a) (geErase b)).2 rzr r.2
  addZinvVar (a : Gej (FeV α)) (b : Ge (FeV α)) (bzinv : FeV α) : GejTracked a → GeTracked b → Tracked bzinv →
    bzinv.magnitude ≤ 8 →
    Runs (gejAddZinvVarV a b bzinv) (GoodGej (Model.gejAddZinvVar (gejErase a) (geErase b) bzinv.fe))
  addGe (a : Gej (FeV α)) (b : Ge (FeV α)) : GejTracked a → GeTracked b → b.infinity = false →
    Runs (gejAddGeV a b) (GoodGej (Model.gejAddGe (gejErase a) (geErase b)))
  rescale (a : Gej (FeV α)) (s : FeV α) : GejTracked a → Tracked s → s.magnitude ≤ 8 →
    FeOps.normalizesToZero s.fe = false → Runs (gejRescaleV a s) (GoodGej (Model.gejRescale (gejErase a) s.fe))
  cmov (a b : Gej (FeV α)) (flag : Bool) : GejTracked a → GejTracked b →
    Runs (gejCmovV a b flag) (GoodGej (Model.gejCmov (gejErase a) (gejErase b) flag))
  eqVar (a b : Gej (FeV α)) : GejTracked a → GejTracked b →
    Runs (gejEqVarV a b) (· = Model.gejEqVar (gejErase a) (gejErase b))
  eqGeVar (a : Gej (FeV α)) (b : Ge (FeV α)) : GejTracked a → GeTracked b →
    Runs (gejEqGeVarV a b) (· = Model.gejEqGeVar (gejErase a) (geErase b))
  geEqVar (a b : Ge (FeV α)) : GeTracked a → GeTracked b →
    Runs (geEqVarV a b) (· = Model.geEqVar (geErase a) (geErase b))
  eqXVar (x : FeV α) (a : Gej (FeV α)) : Tracked x → x.magnitude ≤ 8 → GejTracked a → a.infinity = false →
    Runs (gejEqXVarV x a) (· = Model.gejEqXVar x.fe (gejErase a))
  mulLambda (a : Ge (FeV α)) : GeTracked a → Runs (geMulLambdaV a) (GoodGe (Model.geMulLambda (geErase a)))
  setXoVar (x : FeV α) (odd : Bool) : Tracked x → x.magnitude ≤ 4 →
    Runs (geSetXoVarV x odd) fun r => GoodGe (Limb.geSetXoVar x.fe odd).1 r.1 ∧ r.2 = (Limb.geSetXoVar x.fe odd).2
  xOnCurve (x : FeV α) : Tracked x → x.magnitude ≤ 8 → Runs (geXOnCurveVarV x) (· = Limb.geXOnCurveVar x.fe)
  xFracOnCurve (xn xd : FeV α) : Tracked xn → Tracked xd → xn.magnitude ≤ 8 → xd.magnitude ≤ 8 →
    FeOps.normalizesToZero xd.fe = false →
    Runs (geXFracOnCurveVarV xn xd) (· = Limb.geXFracOnCurveVar xn.fe xd.fe)

/-! ### Programs -/

/-- A statement of a program on two arrays of points: numbers are indices. -/
inductive Stmt where
  | infinity (d : ℕ)
  | double (d a : ℕ)
  | add (d a b : ℕ)
  | addGe (d a b : ℕ)
  | neg (d a : ℕ)
  | cmov (d a : ℕ) (flag : Bool)
  | toAffine (d a : ℕ)
  | ofAffine (d a : ℕ)
  | affineNeg (d a : ℕ)
  | mulLambda (d a : ℕ)
  /-- the branch-free addition, only called with a point that is not the point at infinity -/
  | addGeConst (d a b : ℕ)

variable {α}

/-- The arrays. -/
structure Points (β : Type) where
  jac : ℕ → Gej β
  aff : ℕ → Ge β

/-- Store a Jacobian point. -/
def Points.setJ {β : Type} (s : Points β) (d : ℕ) (v : Gej β) : Points β := { s with jac := Function.update s.jac d v }

/-- Store an affine point. -/
def Points.setA {β : Type} (s : Points β) (d : ℕ) (v : Ge β) : Points β := { s with aff := Function.update s.aff d v }

/-- One statement in a build with the checks. -/
def stepV (s : Points (FeV α)) : Stmt → Option (Points (FeV α))
  | .infinity d => gejInfinityV.map (s.setJ d)
  | .double d a => (gejDoubleV (s.jac a)).map (s.setJ d)
  | .add d a b => (gejAddVarV (s.jac a) (s.jac b) false).map fun r => s.setJ d r.1
  | .addGe d a b => (gejAddGeVarV (s.jac a) (s.aff b) false).map fun r => s.setJ d r.1
  | .neg d a => (gejNegV (s.jac a)).map (s.setJ d)
  | .cmov d a flag => (gejCmovV (s.jac d) (s.jac a) flag).map (s.setJ d)
  | .toAffine d a => (geSetGejV (s.jac a)).map fun r => (s.setJ a r.2).setA d r.1
  | .ofAffine d a => (gejSetGeV (s.aff a)).map (s.setJ d)
  | .affineNeg d a => (geNegV (s.aff a)).map (s.setA d)
  | .mulLambda d a => (geMulLambdaV (s.aff a)).map (s.setA d)
  | .addGeConst d a b => if (s.aff b).infinity then some s else (gejAddGeV (s.jac a) (s.aff b)).map (s.setJ d)

/-- One statement in a build without the checks. -/
def step (s : Points α) : Stmt → Points α
  | .infinity d => s.setJ d Model.gejInfinity
  | .double d a => s.setJ d (Model.gejDouble (s.jac a))
  | .add d a b => s.setJ d (Model.gejAddVar (s.jac a) (s.jac b)).1
  | .addGe d a b => s.setJ d (Model.gejAddGeVar (s.jac a) (s.aff b)).1
  | .neg d a => s.setJ d (Model.gejNeg (s.jac a))
  | .cmov d a flag => s.setJ d (Model.gejCmov (s.jac d) (s.jac a) flag)
  | .toAffine d a => (s.setJ a (Model.gejSetGe (Model.geSetGej (s.jac a)))).setA d (Model.geSetGej (s.jac a))
  | .ofAffine d a => s.setJ d (Model.gejSetGe (s.aff a))
  | .affineNeg d a => s.setA d (Model.geNeg (s.aff a))
  | .mulLambda d a => s.setA d (Model.geMulLambda (s.aff a))
  | .addGeConst d a b => if (s.aff b).infinity then s else s.setJ d (Model.gejAddGe (s.jac a) (s.aff b))

/-- A program in a build with the checks; `none` if one of them fails on the way. -/
def runV (s : Points (FeV α)) (prog : List Stmt) : Option (Points (FeV α)) := prog.foldlM stepV s

/-- A program in a build without the checks. -/
def run (s : Points α) (prog : List Stmt) : Points α := prog.foldl step s

/-- All points are correctly tracked copies of those in `t`. -/
def GoodPoints (t : Points α) (s : Points (FeV α)) : Prop :=
  (∀ i, GoodGej (t.jac i) (s.jac i)) ∧ ∀ i, GoodGe (t.aff i) (s.aff i)

end Secp.Model.Verify
