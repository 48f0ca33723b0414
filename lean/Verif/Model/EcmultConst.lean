import Verif.Model.GroupX

/-!
# Model of the constant-time multiplication (`/repo/src/ecmult_const_impl.h`)
-/

namespace Secp.Model

open FeOps

variable {α : Type} [FeOps α]

/-- `ECMULT_CONST_GROUP_SIZE`, ecmult_const_impl.h:30 -/
def constGroupSize : Nat := 5
/-- `ECMULT_CONST_TABLE_SIZE`, ecmult_const_impl.h:33 -/
def constTableSize : Nat := 2 ^ (constGroupSize - 1)
/-- `ECMULT_CONST_GROUPS`, ecmult_const_impl.h:34 -/
def constGroups : Nat := (129 + constGroupSize - 1) / constGroupSize

/-- `secp256k1_ecmult_const_K` for `ECMULT_CONST_BITS == 130`, ecmult_const_impl.h:116 -/
def constK : Nat := 0xa4e88a7dcb13034ec2bdd6bf7c118d6b589ae84826ba29e4b5c2c1dcde9798d9

/-- `S_OFFSET`, ecmult_const_impl.h:192 -/
def constSOffset : Nat := 0x100000000000000000000000000000000

/-- `secp256k1_ecmult_const_odd_multiples_table_globalz`, ecmult_const_impl.h:44-49:
(`pre`, `globalz`) -/
def constOddMultiplesTableGlobalz (a : Gej α) : List (Ge α) × α :=
  let t := oddMultiplesTable constTableSize a
  (tableSetGlobalz t.1, t.2)

/-- The loop of `ECMULT_CONST_TABLE_GET_GE`, ecmult_const_impl.h:94-99: iterations `1 … m`. -/
def constTableGetLoop (pre : List (Ge α)) (index : Nat) : Nat → Ge α
  | 0 => { x := (pre.getD 0 geGarbage).x, y := (pre.getD 0 geGarbage).y, infinity := false }
  | m + 1 =>
    let r := constTableGetLoop pre index m
    let r := { r with x := cmov r.x (pre.getD (m + 1) geGarbage).x (m + 1 == index) }
    { r with y := cmov r.y (pre.getD (m + 1) geGarbage).y (m + 1 == index) }

/-- `ECMULT_CONST_TABLE_GET_GE`, ecmult_const_impl.h:61-103.  `unsigned int` has 32 bits. -/
def constTableGetGe (pre : List (Ge α)) (k : Nat) : Ge α :=
  let negative := (k >>> (constGroupSize - 1)) ^^^ 1
  let index := (((2 ^ 32 - negative) % 2 ^ 32) ^^^ k) &&& (2 ^ (constGroupSize - 1) - 1)
  let r := constTableGetLoop pre index (constTableSize - 1)
  let r := { r with infinity := false }
  let negY := negate r.y 1
  { r with y := cmov r.y negY (negative != 0) }

/-- `secp256k1_gej_double` applied `k` times, ecmult_const_impl.h:257-259 -/
def gejDoubleN (r : Gej α) : Nat → Gej α
  | 0 => r
  | k + 1 => gejDoubleN (gejDouble r) k

/-- The loop at ecmult_const_impl.h:244-264, iterations `g-1, …, 0`. -/
def constLoop (preA preALam : List (Ge α)) (v1 v2 : Fn) : Nat → Gej α → Gej α
  | 0, r => r
  | group + 1, r =>
    let bits1 := scGetBits v1 (group * constGroupSize) constGroupSize
    let bits2 := scGetBits v2 (group * constGroupSize) constGroupSize
    let t := constTableGetGe preA bits1
    let r :=
      if group = constGroups - 1 then gejSetGe t
      else
        let r := gejDoubleN r constGroupSize
        gejAddGe r t
    let t := constTableGetGe preALam bits2
    let r := gejAddGe r t
    constLoop preA preALam v1 v2 group r

/-- `secp256k1_ecmult_const`, ecmult_const_impl.h:124-268 -/
def ecmultConst (a : Ge α) (q : Fn) : Gej α :=
  if a.infinity then gejInfinity
  else
    let s := q + scConst constK
    let s := scHalf s
    let sp := scSplitLambda s
    let v1 := sp.1 + scConst constSOffset
    let v2 := sp.2 + scConst constSOffset
    let r := gejSetGe a
    let t := constOddMultiplesTableGlobalz r
    let preALam := t.1.map geMulLambda
    let r := constLoop t.1 preALam v1 v2 constGroups r
    { r with z := mul r.z t.2 }

/-- `secp256k1_ecmult_const_xonly`, ecmult_const_impl.h:270-397: `none` is the return value 0.
`d = none` is the NULL pointer. -/
def ecmultConstXonly (n : Fp) (d : Option Fp) (q : Fn) (knownOnCurve : Bool) : Option Fp :=
  let g := sqr n
  let g := mul g n
  let (g, ok) := match d with
    | some d =>
      let b := sqr d
      let b := mulInt b curveB
      let b := mul b d
      let g := add g b
      let c := mul g d
      (g, knownOnCurve || feIsSquareVar c)
    | none =>
      let g := addInt g curveB
      (g, knownOnCurve || feIsSquareVar g)
  if !ok then none
  else
    let px := mul g n
    let py := sqr g
    let rj := ecmultConst ⟨px, py, false⟩ q
    let i := sqr rj.z
    let i := mul i g
    let i := match d with
      | some d => mul i d
      | none => i
    let i := inv i
    some (mul rj.x i)

end Secp.Model
