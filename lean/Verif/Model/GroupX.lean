import Verif.Model.Ecmult

/-!
# Model of the remaining functions of `/repo/src/group_impl.h`, on field values
-/

namespace Secp.Model

open FeOps

/-- `secp256k1_fe_is_odd`, field.h:177 (of a normalised element) -/
def feIsOdd (a : Fp) : Bool := a.val % 2 == 1

/-- `secp256k1_fe_is_zero`, field.h:171 (of a normalised element) -/
def feIsZero (a : Fp) : Bool := a.val == 0

/-- `secp256k1_fe_is_square_var`, field_5x52_impl.h:499-520.  Simplification: the C code first runs
`secp256k1_jacobi64_maybe_var` and uses the branch modelled here, `secp256k1_fe_sqrt`, when that
gives no answer.  The code as it is, on limbs, is `Fe5.isSquareVar?`; the theorem
`C59_is_square_value` says that the two always agree. -/
def feIsSquareVar (a : Fp) : Bool := if feIsZero a then true else (sqrt a).2

/-- `secp256k1_ge_set_xo_var`, group_impl.h:347-365: (`r`, return value). -/
def geSetXoVar (x : Fp) (odd : Bool) : Ge Fp × Bool :=
  let x2 := sqr x
  let x3 := mul x x2
  let x3 := addInt x3 curveB
  let s := sqrt x3
  let y := FeOps.normalize s.1
  let y := if feIsOdd y != odd then negate y 1 else y
  (⟨x, y, false⟩, s.2)

/-- `secp256k1_ge_x_on_curve_var`, group_impl.h:948-954 -/
def geXOnCurveVar (x : Fp) : Bool :=
  let c := sqr x
  let c := mul c x
  let c := addInt c curveB
  feIsSquareVar c

/-- `secp256k1_ge_x_frac_on_curve_var`, group_impl.h:956-973 -/
def geXFracOnCurveVar (xn xd : Fp) : Bool :=
  let r := mul xd xn
  let t := sqr xn
  let r := mul r t
  let t := sqr xd
  let t := sqr t
  let t := mulInt t curveB
  let r := add r t
  feIsSquareVar r

/-- `secp256k1_ge_mul_lambda`, group_impl.h:915-922 -/
def geMulLambda {α : Type} [FeOps α] (a : Ge α) : Ge α := { a with x := mul a.x (feConst constBeta) }

end Secp.Model
