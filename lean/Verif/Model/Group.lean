import Verif.Model.FeOps

/-!
# Model of the group code (`/repo/src/group_impl.h`)

One definition per C function, statement by statement.  Conventions:

* An out-parameter becomes a component of the result; `cmov` and friends return the new value.
* Points are passed by value.  `Model/Inplace.lean` has the same functions with pointers, which may be
  equal, on a memory; C78 proves that they compute the values below for every choice of pointers.
* `rzr`, the optional out-pointer of the variable-time additions, becomes an `Option` result:
  `none` means that C does not write it.  A caller passing `NULL` ignores it.
* `*_VERIFY` and `VERIFY_CHECK` are not compiled in the modelled configuration.
-/

namespace Secp.Model

open FeOps

/-- `secp256k1_ge`, /repo/src/group.h:16-20: affine point with infinity flag. -/
structure Ge (α : Type) where
  x : α
  y : α
  infinity : Bool
deriving Repr, DecidableEq

/-- `secp256k1_gej`, /repo/src/group.h:28-33: Jacobian point with infinity flag. -/
structure Gej (α : Type) where
  x : α
  y : α
  z : α
  infinity : Bool
deriving Repr, DecidableEq

variable {α : Type} [FeOps α]

/-- `SECP256K1_GEJ_X_MAGNITUDE_MAX`, /repo/src/group.h:51 -/
def gejXMag : Nat := 4
/-- `SECP256K1_GEJ_Y_MAGNITUDE_MAX`, /repo/src/group.h:52 -/
def gejYMag : Nat := 4
/-- `SECP256K1_B`, /repo/src/group_impl.h:73 -/
def curveB : Nat := 7

/-- `secp256k1_ge_set_gej_zinv`, group_impl.h:99-113 -/
def geSetGejZinv (a : Gej α) (zi : α) : Ge α :=
  let zi2 := sqr zi
  let zi3 := mul zi2 zi
  { x := mul a.x zi2, y := mul a.y zi3, infinity := a.infinity }

/-- `secp256k1_ge_set_ge_zinv`, group_impl.h:116-130 -/
def geSetGeZinv (a : Ge α) (zi : α) : Ge α :=
  let zi2 := sqr zi
  let zi3 := mul zi2 zi
  { x := mul a.x zi2, y := mul a.y zi3, infinity := a.infinity }

/-- `secp256k1_ge_set_xy`, group_impl.h:132-141 -/
def geSetXY (x y : α) : Ge α := { x := x, y := y, infinity := false }

/-- `secp256k1_ge_neg`, group_impl.h:149-157 -/
def geNeg (a : Ge α) : Ge α :=
  { a with y := negate (normalizeWeak a.y) 1 }

/-- `secp256k1_ge_set_gej`, group_impl.h:159-175.  C also overwrites `*a` with the rescaled point
(C78); no caller in the modelled code reads it afterwards. -/
def geSetGej (a : Gej α) : Ge α :=
  let az := inv a.z
  let z2 := sqr az
  let z3 := mul az z2
  { x := mul a.x z2, y := mul a.y z3, infinity := a.infinity }

/-- `secp256k1_ge_set_infinity`, group_impl.h:331-337 -/
def geInfinity : Ge α := { x := setInt 0, y := setInt 0, infinity := true }

/-- `secp256k1_gej_set_infinity`, group_impl.h:322-329 -/
def gejInfinity : Gej α := { x := setInt 0, y := setInt 0, z := setInt 0, infinity := true }

/-- `secp256k1_ge_set_gej_var`, group_impl.h:177-196 (same remark as `geSetGej`). -/
def geSetGejVar (a : Gej α) : Ge α :=
  if a.infinity then geInfinity
  else
    let az := invVar a.z
    let z2 := sqr az
    let z3 := mul az z2
    geSetXY (mul a.x z2) (mul a.y z3)

/-- `secp256k1_gej_set_ge`, group_impl.h:367-376 -/
def gejSetGe (a : Ge α) : Gej α :=
  { x := a.x, y := a.y, z := setInt 1, infinity := a.infinity }

/-- `secp256k1_gej_neg`, group_impl.h:427-438 -/
def gejNeg (a : Gej α) : Gej α :=
  { a with y := negate (normalizeWeak a.y) 1 }

/-- `secp256k1_ge_is_valid_var`, group_impl.h:446-458 -/
def geIsValidVar (a : Ge α) : Bool :=
  if a.infinity then false
  else
    let y2 := sqr a.y
    let x3 := sqr a.x
    let x3 := mul x3 a.x
    let x3 := addInt x3 curveB
    equal y2 x3

/-- `secp256k1_gej_double`, group_impl.h:460-493 -/
def gejDouble (a : Gej α) : Gej α :=
  let rz := mul a.z a.y
  let s := sqr a.y
  let l := sqr a.x
  let l := mulInt l 3
  let l := half l
  let t := negate s 1
  let t := mul t a.x
  let rx := sqr l
  let rx := add rx t
  let rx := add rx t
  let s := sqr s
  let t := add t rx
  let ry := mul t l
  let ry := add ry s
  let ry := negate ry 2
  { x := rx, y := ry, z := rz, infinity := a.infinity }

/-- `secp256k1_gej_double_var`, group_impl.h:495-524 -/
def gejDoubleVar (a : Gej α) : Gej α × Option α :=
  if a.infinity then (gejInfinity, some (setInt 1))
  else (gejDouble a, some (normalizeWeak a.y))

/-- `secp256k1_gej_add_var`, group_impl.h:526-588 -/
def gejAddVar (a b : Gej α) : Gej α × Option α :=
  if a.infinity then (b, none)
  else if b.infinity then (a, some (setInt 1))
  else
    let z22 := sqr b.z
    let z12 := sqr a.z
    let u1 := mul a.x z22
    let u2 := mul b.x z12
    let s1 := mul a.y z22
    let s1 := mul s1 b.z
    let s2 := mul b.y z12
    let s2 := mul s2 a.z
    let h := negate u1 1
    let h := add h u2
    let i := negate s2 1
    let i := add i s1
    if normalizesToZero h then
      if normalizesToZero i then gejDoubleVar a
      else (gejInfinity, some (setInt 0))
    else
      let t := mul h b.z
      let rzr := t
      let rz := mul a.z t
      let h2 := sqr h
      let h2 := negate h2 1
      let h3 := mul h2 h
      let t := mul u1 h2
      let rx := sqr i
      let rx := add rx h3
      let rx := add rx t
      let rx := add rx t
      let t := add t rx
      let ry := mul t i
      let h3 := mul h3 s1
      let ry := add ry h3
      ({ x := rx, y := ry, z := rz, infinity := false }, some rzr)

/-- `secp256k1_gej_add_ge_var`, group_impl.h:590-651 -/
def gejAddGeVar (a : Gej α) (b : Ge α) : Gej α × Option α :=
  if a.infinity then (gejSetGe b, none)
  else if b.infinity then (a, some (setInt 1))
  else
    let z12 := sqr a.z
    let u1 := a.x
    let u2 := mul b.x z12
    let s1 := a.y
    let s2 := mul b.y z12
    let s2 := mul s2 a.z
    let h := negate u1 gejXMag
    let h := add h u2
    let i := negate s2 1
    let i := add i s1
    if normalizesToZero h then
      if normalizesToZero i then gejDoubleVar a
      else (gejInfinity, some (setInt 0))
    else
      let rzr := h
      let rz := mul a.z h
      let h2 := sqr h
      let h2 := negate h2 1
      let h3 := mul h2 h
      let t := mul u1 h2
      let rx := sqr i
      let rx := add rx h3
      let rx := add rx t
      let rx := add rx t
      let t := add t rx
      let ry := mul t i
      let h3 := mul h3 s1
      let ry := add ry h3
      ({ x := rx, y := ry, z := rz, infinity := false }, some rzr)

/-- `secp256k1_gej_add_zinv_var`, group_impl.h:653-721 -/
def gejAddZinvVar (a : Gej α) (b : Ge α) (bzinv : α) : Gej α :=
  if a.infinity then
    let bzinv2 := sqr bzinv
    let bzinv3 := mul bzinv2 bzinv
    { x := mul b.x bzinv2, y := mul b.y bzinv3, z := setInt 1, infinity := b.infinity }
  else if b.infinity then a
  else
    let az := mul a.z bzinv
    let z12 := sqr az
    let u1 := a.x
    let u2 := mul b.x z12
    let s1 := a.y
    let s2 := mul b.y z12
    let s2 := mul s2 az
    let h := negate u1 gejXMag
    let h := add h u2
    let i := negate s2 1
    let i := add i s1
    if normalizesToZero h then
      if normalizesToZero i then (gejDoubleVar a).1
      else gejInfinity
    else
      let rz := mul a.z h
      let h2 := sqr h
      let h2 := negate h2 1
      let h3 := mul h2 h
      let t := mul u1 h2
      let rx := sqr i
      let rx := add rx h3
      let rx := add rx t
      let rx := add rx t
      let t := add t rx
      let ry := mul t i
      let h3 := mul h3 s1
      let ry := add ry h3
      { x := rx, y := ry, z := rz, infinity := false }

/-- `secp256k1_gej_add_ge`, group_impl.h:724-859 (the branch-free addition) -/
def gejAddGe (a : Gej α) (b : Ge α) : Gej α :=
  let zz := sqr a.z
  let u1 := a.x
  let u2 := mul b.x zz
  let s1 := a.y
  let s2 := mul b.y zz
  let s2 := mul s2 a.z
  let t := add u1 u2
  let m := add s1 s2
  let rr := sqr t
  let malt := negate u2 1
  let tt := mul u1 malt
  let rr := add rr tt
  let degenerate := normalizesToZero m
  let rralt := s1
  let rralt := mulInt rralt 2
  let malt := add malt u1
  let rralt := cmov rralt rr (!degenerate)
  let malt := cmov malt m (!degenerate)
  let n := sqr malt
  let q := negate t (gejXMag + 1)
  let q := mul q n
  let n := sqr n
  let n := cmov n m degenerate
  let t := sqr rralt
  let rz := mul a.z malt
  let t := add t q
  let rx := t
  let t := mulInt t 2
  let t := add t q
  let t := mul t rralt
  let t := add t n
  let ry := negate t (gejYMag + 2)
  let ry := half ry
  let rx := cmov rx b.x a.infinity
  let ry := cmov ry b.y a.infinity
  let rz := cmov rz (setInt 1) a.infinity
  { x := rx, y := ry, z := rz, infinity := normalizesToZero rz }

/-- `secp256k1_gej_rescale`, group_impl.h:861-875 -/
def gejRescale (r : Gej α) (s : α) : Gej α :=
  let zz := sqr s
  let rx := mul r.x zz
  let ry := mul r.y zz
  let ry := mul ry s
  let rz := mul r.z s
  { x := rx, y := ry, z := rz, infinity := r.infinity }

/-- `secp256k1_gej_cmov`, group_impl.h:898-908 -/
def gejCmov (r a : Gej α) (flag : Bool) : Gej α :=
  { x := cmov r.x a.x flag, y := cmov r.y a.y flag, z := cmov r.z a.z flag,
    infinity := r.infinity ^^ ((r.infinity ^^ a.infinity) && flag) }

/-- `secp256k1_gej_eq_var`, group_impl.h:378-386 -/
def gejEqVar (a b : Gej α) : Bool :=
  let tmp := gejNeg a
  let tmp := (gejAddVar tmp b).1
  tmp.infinity

/-- `secp256k1_gej_eq_ge_var`, group_impl.h:388-396 -/
def gejEqGeVar (a : Gej α) (b : Ge α) : Bool :=
  let tmp := gejNeg a
  let tmp := (gejAddGeVar tmp b).1
  tmp.infinity

/-- `secp256k1_ge_eq_var`, group_impl.h:398-415 -/
def geEqVar (a b : Ge α) : Bool :=
  if a.infinity != b.infinity then false
  else if a.infinity then true
  else
    let tmp := normalizeWeak a.x
    if !(equal tmp b.x) then false
    else
      let tmp := normalizeWeak a.y
      if !(equal tmp b.y) then false
      else true

/-- `secp256k1_gej_eq_x_var`, group_impl.h:417-425 -/
def gejEqXVar (x : α) (a : Gej α) : Bool :=
  let r := sqr a.z
  let r := mul r x
  equal r a.x

end Secp.Model
