import Verif.Model.GroupX
import Verif.Model.FeMem

/-!
# The field and point code of a build with `VERIFY` (`/repo/src/field_impl.h`, `group_impl.h`)

The tests and fuzzers of the project are compiled with `-DVERIFY`: every field element then carries a
magnitude and a flag that says whether it is normalized, and `VERIFY_CHECK` aborts the program when a
condition does not hold.  Here every function is written once more, statement by statement, with its
checks; `none` is an aborted program.  `Verif/Model/Group.lean` is the same code without them.

Left out: the conditions on pointers (`r != b`, see C78) and on `int` flags being 0 or 1 (they are `Bool`
here), and the checks inside `field_5x52_impl.h` and `field_10x26_impl.h` other than `secp256k1_fe_impl_verify`
(`Verif/Model/VerifyField5.lean` and `Verif/Model/VerifyField10.lean` have them).
-/

namespace Secp.Model.Verify

open FeOps

/-- `secp256k1_fe` with the fields of a `VERIFY` build, field.h:11-17, field_5x52.h:12-33, field_10x26.h:13-35.
(Simplification: `magnitude` is not negative; -1 only marks the unused output of a failed
`secp256k1_fe_set_b32_limit`.) -/
structure FeV (α : Type) where
  fe : α
  magnitude : ℕ
  normalized : Bool

/-- The check of the representation. -/
class FeCheck (α : Type) where
  /-- `secp256k1_fe_impl_verify`, given the limbs, the magnitude and the flag -/
  implVerify : α → ℕ → Bool → Bool

/-- `secp256k1_fe_impl_verify`, field_5x52_impl.h:18-34 -/
instance : FeCheck Fe5 where
  implVerify d magnitude normalized :=
    let m := if normalized then 1 else 2 * magnitude
    decide (d.n0 ≤ 0xFFFFFFFFFFFFF * m) && decide (d.n1 ≤ 0xFFFFFFFFFFFFF * m) &&
    decide (d.n2 ≤ 0xFFFFFFFFFFFFF * m) && decide (d.n3 ≤ 0xFFFFFFFFFFFFF * m) &&
    decide (d.n4 ≤ 0x0FFFFFFFFFFFF * m) &&
    (!normalized ||
      (!(d.n4 == 0x0FFFFFFFFFFFF && (d.n3 &&& d.n2 &&& d.n1) == 0xFFFFFFFFFFFFF) ||
        decide (d.n0 < 0xFFFFEFFFFFC2F)))

/-- `secp256k1_fe_impl_verify`, field_10x26_impl.h:14-40 -/
instance : FeCheck Fe10 where
  implVerify d magnitude normalized :=
    let m := if normalized then 1 else 2 * magnitude
    decide (d.n0 ≤ 0x3FFFFFF * m) && decide (d.n1 ≤ 0x3FFFFFF * m) && decide (d.n2 ≤ 0x3FFFFFF * m) &&
    decide (d.n3 ≤ 0x3FFFFFF * m) && decide (d.n4 ≤ 0x3FFFFFF * m) && decide (d.n5 ≤ 0x3FFFFFF * m) &&
    decide (d.n6 ≤ 0x3FFFFFF * m) && decide (d.n7 ≤ 0x3FFFFFF * m) && decide (d.n8 ≤ 0x3FFFFFF * m) &&
    decide (d.n9 ≤ 0x03FFFFF * m) &&
    (!normalized || !(d.n9 == 0x03FFFFF) ||
      (!((d.n8 &&& d.n7 &&& d.n6 &&& d.n5 &&& d.n4 &&& d.n3 &&& d.n2) == 0x3FFFFFF) ||
        decide (d.n1 + 0x40 + ((d.n0 + 0x3D1) >>> 26) ≤ 0x3FFFFFF)))

variable {α : Type}

/-- `VERIFY_CHECK`, util.h:153-160 -/
def check (b : Bool) : Option Unit := if b then some () else none

/-- `SECP256K1_FE_VERIFY_MAGNITUDE`, field_impl.h:165-169 -/
def FeV.atMost (a : FeV α) (m : ℕ) : Bool := decide (m ≤ 32) && decide (a.magnitude ≤ m)

variable [FeCheck α]

/-- `SECP256K1_FE_VERIFY`, field_impl.h:153-162: whether every check holds -/
def FeV.verify (a : FeV α) : Bool :=
  a.atMost 32 && (!a.normalized || a.atMost 1) && FeCheck.implVerify a.fe a.magnitude a.normalized

/-- The check at the end of a function, then its result. -/
def ret (r : FeV α) : Option (FeV α) := do
  check r.verify
  some r

section
variable [FeOps α]

/-- `secp256k1_fe_normalize` and `secp256k1_fe_normalize_var`, field_impl.h:171-179, 192-200 -/
def feNormalize (r : FeV α) : Option (FeV α) := do
  check r.verify
  ret ⟨normalize r.fe, 1, true⟩

/-- `secp256k1_fe_normalize_weak`, field_impl.h:182-189: the flag stays as it is -/
def feNormalizeWeak (r : FeV α) : Option (FeV α) := do
  check r.verify
  ret ⟨normalizeWeak r.fe, 1, r.normalized⟩

/-- `secp256k1_fe_normalizes_to_zero` and `_var`, field_impl.h:203-214 -/
def feNormalizesToZero (r : FeV α) : Option Bool := do
  check r.verify
  some (normalizesToZero r.fe)

/-- `secp256k1_fe_set_int`, field_impl.h:217-225 -/
def feSetInt (a : ℕ) : Option (FeV α) := do
  check (decide (a ≤ 0x7FFF))
  ret ⟨setInt a, if a = 0 then 0 else 1, true⟩

/-- `secp256k1_fe_add_int`, field_impl.h:228-237 -/
def feAddInt (r : FeV α) (a : ℕ) : Option (FeV α) := do
  check (decide (a ≤ 0x7FFF))
  check r.verify
  ret ⟨addInt r.fe a, r.magnitude + 1, false⟩

/-- `secp256k1_fe_negate`, field_impl.h:297-307 -/
def feNegate (a : FeV α) (m : ℕ) : Option (FeV α) := do
  check a.verify
  check (decide (m ≤ 31))
  check (a.atMost m)
  ret ⟨negate a.fe m, m + 1, false⟩

/-- `secp256k1_fe_mul_int`, field_impl.h:310-320 -/
def feMulInt (r : FeV α) (a : ℕ) : Option (FeV α) := do
  check r.verify
  check (decide (a ≤ 32))
  check (decide (a * r.magnitude ≤ 32))
  ret ⟨mulInt r.fe a, r.magnitude * a, false⟩

/-- `secp256k1_fe_add`, field_impl.h:323-333 -/
def feAdd (r a : FeV α) : Option (FeV α) := do
  check r.verify
  check a.verify
  check (decide (r.magnitude + a.magnitude ≤ 32))
  ret ⟨add r.fe a.fe, r.magnitude + a.magnitude, false⟩

/-- `secp256k1_fe_mul`, field_impl.h:336-349 -/
def feMul (a b : FeV α) : Option (FeV α) := do
  check a.verify
  check b.verify
  check (a.atMost 8)
  check (b.atMost 8)
  ret ⟨mul a.fe b.fe, 1, false⟩

/-- `secp256k1_fe_sqr`, field_impl.h:352-361 -/
def feSqr (a : FeV α) : Option (FeV α) := do
  check a.verify
  check (a.atMost 8)
  ret ⟨sqr a.fe, 1, false⟩

/-- `secp256k1_fe_cmov`, field_impl.h:364-374 -/
def feCmov (r a : FeV α) (flag : Bool) : Option (FeV α) := do
  check a.verify
  check r.verify
  ret ⟨cmov r.fe a.fe flag, if a.magnitude > r.magnitude then a.magnitude else r.magnitude,
    if !a.normalized then false else r.normalized⟩

/-- `secp256k1_fe_half`, field_impl.h:444-453 -/
def feHalf (r : FeV α) : Option (FeV α) := do
  check r.verify
  check (r.atMost 31)
  ret ⟨half r.fe, r.magnitude >>> 1 + 1, false⟩

/-- `secp256k1_fe_inv`, field_impl.h:394-404 -/
def feInv (x : FeV α) : Option (FeV α) := do
  let inputIsZero ← feNormalizesToZero x
  check x.verify
  let r : FeV α := ⟨inv x.fe, if x.magnitude > 0 then 1 else 0, true⟩
  let z ← feNormalizesToZero r
  check (z == inputIsZero)
  ret r

/-- `secp256k1_fe_inv_var`, field_impl.h:407-417 -/
def feInvVar (x : FeV α) : Option (FeV α) := do
  let inputIsZero ← feNormalizesToZero x
  check x.verify
  let r : FeV α := ⟨invVar x.fe, if x.magnitude > 0 then 1 else 0, true⟩
  let z ← feNormalizesToZero r
  check (z == inputIsZero)
  ret r

/-- `secp256k1_fe_equal`, field_impl.h:25-35 -/
def feEqual (a b : FeV α) : Option Bool := do
  check a.verify
  check b.verify
  check (a.atMost 1)
  check (b.atMost 31)
  let na ← feNegate a 1
  let na ← feAdd na b
  feNormalizesToZero na

/-- `for (j=0; j<k; j++) secp256k1_fe_sqr(&x, &x);` -/
def feSqrN (a : FeV α) : ℕ → Option (FeV α)
  | 0 => some a
  | k + 1 => do
    let x ← feSqrN a k
    feSqr x

/-- `secp256k1_fe_sqrt`, field_impl.h:37-146, with its `VERIFY` block -/
def feSqrt (a : FeV α) : Option (FeV α × Bool) := do
  check a.verify
  check (a.atMost 8)
  let x2 ← feSqr a
  let x2 ← feMul x2 a
  let x3 ← feSqr x2
  let x3 ← feMul x3 a
  let x6 ← feSqrN x3 3
  let x6 ← feMul x6 x3
  let x9 ← feSqrN x6 3
  let x9 ← feMul x9 x3
  let x11 ← feSqrN x9 2
  let x11 ← feMul x11 x2
  let x22 ← feSqrN x11 11
  let x22 ← feMul x22 x11
  let x44 ← feSqrN x22 22
  let x44 ← feMul x44 x22
  let x88 ← feSqrN x44 44
  let x88 ← feMul x88 x44
  let x176 ← feSqrN x88 88
  let x176 ← feMul x176 x88
  let x220 ← feSqrN x176 44
  let x220 ← feMul x220 x44
  let x223 ← feSqrN x220 3
  let x223 ← feMul x223 x3
  let t1 ← feSqrN x223 23
  let t1 ← feMul t1 x22
  let t1 ← feSqrN t1 6
  let t1 ← feMul t1 x2
  let t1 ← feSqr t1
  let r ← feSqr t1
  let t1 ← feSqr r
  let e ← feEqual t1 a
  if e then some (r, e)
  else do
    let t1 ← feNegate t1 1
    let t1 ← feNormalize t1
    let e' ← feEqual t1 a
    check e'
    some (r, e)

/-- `SECP256K1_FE_CONST` in a `VERIFY` build, field.h:50-66: magnitude 1, normalized -/
def feConstV (x : ℕ) : FeV α := ⟨feConst x, 1, true⟩

variable [FeMem α]

/-- `secp256k1_fe_is_odd`, field_impl.h:248-253 -/
def feIsOddV (a : FeV α) : Option Bool := do
  check a.verify
  check a.normalized
  some (FeMem.isOdd a.fe)

/-- `secp256k1_fe_is_square_var`, field_impl.h:420-429 -/
def feIsSquareVarV (x : FeV α) : Option Bool := do
  check x.verify
  let r := FeMem.isSquareVar x.fe
  let tmp ← feNormalizeWeak x
  let s ← feSqrt tmp
  check (r == s.2)
  some r

end

/-- `secp256k1_ge_verify`, group_impl.h:78-85 -/
def geVerify (a : Ge (FeV α)) : Bool := a.x.verify && a.y.verify && a.x.atMost 4 && a.y.atMost 3

/-- `secp256k1_gej_verify`, group_impl.h:87-96 -/
def gejVerify (a : Gej (FeV α)) : Bool :=
  a.x.verify && a.y.verify && a.z.verify && a.x.atMost 4 && a.y.atMost 4 && a.z.atMost 1

/-- The check at the end of a function, then its result. -/
def retGe (r : Ge (FeV α)) : Option (Ge (FeV α)) := do
  check (geVerify r)
  some r

/-- The check at the end of a function, then its result. -/
def retGej (r : Gej (FeV α)) : Option (Gej (FeV α)) := do
  check (gejVerify r)
  some r

section
variable [FeOps α]

/-- `secp256k1_ge_set_gej_zinv`, group_impl.h:99-113 -/
def geSetGejZinvV (a : Gej (FeV α)) (zi : FeV α) : Option (Ge (FeV α)) := do
  check (gejVerify a)
  check zi.verify
  check (!a.infinity)
  let zi2 ← feSqr zi
  let zi3 ← feMul zi2 zi
  let x ← feMul a.x zi2
  let y ← feMul a.y zi3
  retGe ⟨x, y, a.infinity⟩

/-- `secp256k1_ge_set_ge_zinv`, group_impl.h:116-130 -/
def geSetGeZinvV (a : Ge (FeV α)) (zi : FeV α) : Option (Ge (FeV α)) := do
  check (geVerify a)
  check zi.verify
  check (!a.infinity)
  let zi2 ← feSqr zi
  let zi3 ← feMul zi2 zi
  let x ← feMul a.x zi2
  let y ← feMul a.y zi3
  retGe ⟨x, y, a.infinity⟩

/-- `secp256k1_ge_set_xy`, group_impl.h:132-141 -/
def geSetXYV (x y : FeV α) : Option (Ge (FeV α)) := do
  check x.verify
  check y.verify
  retGe ⟨x, y, false⟩

/-- `secp256k1_ge_neg`, group_impl.h:149-157 -/
def geNegV (a : Ge (FeV α)) : Option (Ge (FeV α)) := do
  check (geVerify a)
  let y ← feNormalizeWeak a.y
  let y ← feNegate y 1
  retGe { a with y := y }

/-- `secp256k1_gej_set_infinity`, group_impl.h:322-329 -/
def gejInfinityV : Option (Gej (FeV α)) := do
  let x ← feSetInt 0
  let y ← feSetInt 0
  let z ← feSetInt 0
  retGej ⟨x, y, z, true⟩

/-- `secp256k1_ge_set_infinity`, group_impl.h:331-337 -/
def geInfinityV : Option (Ge (FeV α)) := do
  let x ← feSetInt 0
  let y ← feSetInt 0
  retGe ⟨x, y, true⟩

/-- `secp256k1_ge_set_gej`, group_impl.h:159-175: the affine point and the rescaled input -/
def geSetGejV (a : Gej (FeV α)) : Option (Ge (FeV α) × Gej (FeV α)) := do
  check (gejVerify a)
  let az ← feInv a.z
  let z2 ← feSqr az
  let z3 ← feMul az z2
  let x ← feMul a.x z2
  let y ← feMul a.y z3
  let z ← feSetInt 1
  let a' ← retGej ⟨x, y, z, a.infinity⟩
  let r ← retGe ⟨x, y, a.infinity⟩
  some (r, a')

/-- `secp256k1_ge_set_gej_var`, group_impl.h:177-196, with `secp256k1_gej_is_infinity` (440-444) -/
def geSetGejVarV (a : Gej (FeV α)) : Option (Ge (FeV α) × Gej (FeV α)) := do
  check (gejVerify a)
  check (gejVerify a)
  if a.infinity then
    let r ← geInfinityV
    some (r, a)
  else
    let az ← feInvVar a.z
    let z2 ← feSqr az
    let z3 ← feMul az z2
    let x ← feMul a.x z2
    let y ← feMul a.y z3
    let z ← feSetInt 1
    let r ← geSetXYV x y
    let a' ← retGej ⟨x, y, z, a.infinity⟩
    let r ← retGe r
    some (r, a')

/-- `secp256k1_gej_set_ge`, group_impl.h:367-376 -/
def gejSetGeV (a : Ge (FeV α)) : Option (Gej (FeV α)) := do
  check (geVerify a)
  let z ← feSetInt 1
  retGej ⟨a.x, a.y, z, a.infinity⟩

/-- `secp256k1_gej_neg`, group_impl.h:427-438 -/
def gejNegV (a : Gej (FeV α)) : Option (Gej (FeV α)) := do
  check (gejVerify a)
  let y ← feNormalizeWeak a.y
  let y ← feNegate y 1
  retGej { a with y := y }

/-- `secp256k1_ge_is_valid_var`, group_impl.h:446-458 -/
def geIsValidVarV (a : Ge (FeV α)) : Option Bool := do
  check (geVerify a)
  if a.infinity then some false
  else
    let y2 ← feSqr a.y
    let x3 ← feSqr a.x
    let x3 ← feMul x3 a.x
    let x3 ← feAddInt x3 curveB
    feEqual y2 x3

/-- `secp256k1_gej_double`, group_impl.h:460-493 -/
def gejDoubleV (a : Gej (FeV α)) : Option (Gej (FeV α)) := do
  check (gejVerify a)
  let rz ← feMul a.z a.y
  let s ← feSqr a.y
  let l ← feSqr a.x
  let l ← feMulInt l 3
  let l ← feHalf l
  let t ← feNegate s 1
  let t ← feMul t a.x
  let rx ← feSqr l
  let rx ← feAdd rx t
  let rx ← feAdd rx t
  let s ← feSqr s
  let t ← feAdd t rx
  let ry ← feMul t l
  let ry ← feAdd ry s
  let ry ← feNegate ry 2
  retGej ⟨rx, ry, rz, a.infinity⟩

/-- A write to `rzr` that happens if the pointer is not NULL, group_impl.h:511-520, 536-561. -/
def writeRzr (rzr : Bool) (q : Option (FeV α)) : Option (Option (FeV α)) :=
  if rzr then q.map some else some none

/-- `secp256k1_gej_double_var`, group_impl.h:495-524.  `rzr` says whether the pointer of that name is
not NULL. -/
def gejDoubleVarV (a : Gej (FeV α)) (rzr : Bool) : Option (Gej (FeV α) × Option (FeV α)) := do
  check (gejVerify a)
  if a.infinity then
    let r ← gejInfinityV
    let q ← writeRzr rzr (feSetInt 1)
    some (r, q)
  else
    let q ← writeRzr rzr (feNormalizeWeak a.y)
    let r ← gejDoubleV a
    let r ← retGej r
    some (r, q)

/-- The end of the additions below, group_impl.h:572-587, 634-649, 705-720 -/
def addTailV (u1 s1 h i rz : FeV α) : Option (Gej (FeV α)) := do
  let h2 ← feSqr h
  let h2 ← feNegate h2 1
  let h3 ← feMul h2 h
  let t ← feMul u1 h2
  let rx ← feSqr i
  let rx ← feAdd rx h3
  let rx ← feAdd rx t
  let rx ← feAdd rx t
  let t ← feAdd t rx
  let ry ← feMul t i
  let h3 ← feMul h3 s1
  let ry ← feAdd ry h3
  retGej ⟨rx, ry, rz, false⟩

/-- `secp256k1_gej_add_var`, group_impl.h:526-588 -/
def gejAddVarV (a b : Gej (FeV α)) (rzr : Bool) : Option (Gej (FeV α) × Option (FeV α)) := do
  check (gejVerify a)
  check (gejVerify b)
  if a.infinity then
    check (!rzr)
    some (b, none)
  else if b.infinity then
    let q ← writeRzr rzr (feSetInt 1)
    some (a, q)
  else
    let z22 ← feSqr b.z
    let z12 ← feSqr a.z
    let u1 ← feMul a.x z22
    let u2 ← feMul b.x z12
    let s1 ← feMul a.y z22
    let s1 ← feMul s1 b.z
    let s2 ← feMul b.y z12
    let s2 ← feMul s2 a.z
    let h ← feNegate u1 1
    let h ← feAdd h u2
    let i ← feNegate s2 1
    let i ← feAdd i s1
    let hz ← feNormalizesToZero h
    if hz then
      let iz ← feNormalizesToZero i
      if iz then gejDoubleVarV a rzr
      else
        let q ← writeRzr rzr (feSetInt 0)
        let r ← gejInfinityV
        some (r, q)
    else
      let t ← feMul h b.z
      let rz ← feMul a.z t
      let r ← addTailV u1 s1 h i rz
      some (r, if rzr then some t else none)

/-- `secp256k1_gej_add_ge_var`, group_impl.h:590-651 -/
def gejAddGeVarV (a : Gej (FeV α)) (b : Ge (FeV α)) (rzr : Bool) :
    Option (Gej (FeV α) × Option (FeV α)) := do
  check (gejVerify a)
  check (geVerify b)
  if a.infinity then
    check (!rzr)
    let r ← gejSetGeV b
    some (r, none)
  else if b.infinity then
    let q ← writeRzr rzr (feSetInt 1)
    some (a, q)
  else
    let z12 ← feSqr a.z
    let u2 ← feMul b.x z12
    let s2 ← feMul b.y z12
    let s2 ← feMul s2 a.z
    let h ← feNegate a.x gejXMag
    let h ← feAdd h u2
    let i ← feNegate s2 1
    let i ← feAdd i a.y
    let hz ← feNormalizesToZero h
    if hz then
      let iz ← feNormalizesToZero i
      if iz then gejDoubleVarV a rzr
      else
        let q ← writeRzr rzr (feSetInt 0)
        let r ← gejInfinityV
        some (r, q)
    else
      let rz ← feMul a.z h
      let r ← addTailV a.x a.y h i rz
      check (!rzr || h.verify)
      some (r, if rzr then some h else none)

/-- `secp256k1_gej_add_zinv_var`, group_impl.h:653-721 -/
def gejAddZinvVarV (a : Gej (FeV α)) (b : Ge (FeV α)) (bzinv : FeV α) : Option (Gej (FeV α)) := do
  check (gejVerify a)
  check (geVerify b)
  check bzinv.verify
  if a.infinity then
    let bzinv2 ← feSqr bzinv
    let bzinv3 ← feMul bzinv2 bzinv
    let x ← feMul b.x bzinv2
    let y ← feMul b.y bzinv3
    let z ← feSetInt 1
    retGej ⟨x, y, z, b.infinity⟩
  else if b.infinity then some a
  else
    let az ← feMul a.z bzinv
    let z12 ← feSqr az
    let u2 ← feMul b.x z12
    let s2 ← feMul b.y z12
    let s2 ← feMul s2 az
    let h ← feNegate a.x gejXMag
    let h ← feAdd h u2
    let i ← feNegate s2 1
    let i ← feAdd i a.y
    let hz ← feNormalizesToZero h
    if hz then
      let iz ← feNormalizesToZero i
      if iz then (gejDoubleVarV a false).map Prod.fst
      else gejInfinityV
    else
      let rz ← feMul a.z h
      addTailV a.x a.y h i rz

/-- `secp256k1_gej_add_ge`, group_impl.h:724-859 -/
def gejAddGeV (a : Gej (FeV α)) (b : Ge (FeV α)) : Option (Gej (FeV α)) := do
  check (gejVerify a)
  check (geVerify b)
  check (!b.infinity)
  let zz ← feSqr a.z
  let u2 ← feMul b.x zz
  let s2 ← feMul b.y zz
  let s2 ← feMul s2 a.z
  let t ← feAdd a.x u2
  let m ← feAdd a.y s2
  let rr ← feSqr t
  let malt ← feNegate u2 1
  let tt ← feMul a.x malt
  let rr ← feAdd rr tt
  let degenerate ← feNormalizesToZero m
  let rralt ← feMulInt a.y 2
  let malt ← feAdd malt a.x
  let rralt ← feCmov rralt rr (!degenerate)
  let malt ← feCmov malt m (!degenerate)
  let n ← feSqr malt
  let q ← feNegate t (gejXMag + 1)
  let q ← feMul q n
  let n ← feSqr n
  let n ← feCmov n m degenerate
  let t ← feSqr rralt
  let rz ← feMul a.z malt
  let t ← feAdd t q
  let t2 ← feMulInt t 2
  let t2 ← feAdd t2 q
  let t2 ← feMul t2 rralt
  let t2 ← feAdd t2 n
  let ry ← feNegate t2 (gejYMag + 2)
  let ry ← feHalf ry
  let rx ← feCmov t b.x a.infinity
  let ry ← feCmov ry b.y a.infinity
  let one ← feSetInt 1
  let rz ← feCmov rz one a.infinity
  let z ← feNormalizesToZero rz
  retGej ⟨rx, ry, rz, z⟩

/-- `secp256k1_gej_rescale`, group_impl.h:861-875 -/
def gejRescaleV (r : Gej (FeV α)) (s : FeV α) : Option (Gej (FeV α)) := do
  check (gejVerify r)
  check s.verify
  let z ← feNormalizesToZero s
  check (!z)
  let zz ← feSqr s
  let rx ← feMul r.x zz
  let ry ← feMul r.y zz
  let ry ← feMul ry s
  let rz ← feMul r.z s
  retGej ⟨rx, ry, rz, r.infinity⟩

/-- `secp256k1_gej_cmov`, group_impl.h:898-908 -/
def gejCmovV (r a : Gej (FeV α)) (flag : Bool) : Option (Gej (FeV α)) := do
  check (gejVerify r)
  check (gejVerify a)
  let x ← feCmov r.x a.x flag
  let y ← feCmov r.y a.y flag
  let z ← feCmov r.z a.z flag
  retGej ⟨x, y, z, r.infinity ^^ ((r.infinity ^^ a.infinity) && flag)⟩

/-- `secp256k1_gej_eq_var`, group_impl.h:378-386 -/
def gejEqVarV (a b : Gej (FeV α)) : Option Bool := do
  check (gejVerify b)
  check (gejVerify a)
  let tmp ← gejNegV a
  let tmp ← gejAddVarV tmp b false
  check (gejVerify tmp.1)
  some tmp.1.infinity

/-- `secp256k1_gej_eq_ge_var`, group_impl.h:388-396 -/
def gejEqGeVarV (a : Gej (FeV α)) (b : Ge (FeV α)) : Option Bool := do
  check (gejVerify a)
  check (geVerify b)
  let tmp ← gejNegV a
  let tmp ← gejAddGeVarV tmp b false
  check (gejVerify tmp.1)
  some tmp.1.infinity

/-- `secp256k1_ge_eq_var`, group_impl.h:398-415 -/
def geEqVarV (a b : Ge (FeV α)) : Option Bool := do
  check (geVerify a)
  check (geVerify b)
  if a.infinity != b.infinity then some false
  else if a.infinity then some true
  else
    let tmp ← feNormalizeWeak a.x
    let e ← feEqual tmp b.x
    if !e then some false
    else
      let tmp ← feNormalizeWeak a.y
      let e ← feEqual tmp b.y
      if !e then some false
      else some true

/-- `secp256k1_gej_eq_x_var`, group_impl.h:417-425 -/
def gejEqXVarV (x : FeV α) (a : Gej (FeV α)) : Option Bool := do
  check x.verify
  check (gejVerify a)
  check (!a.infinity)
  let r ← feSqr a.z
  let r ← feMul r x
  feEqual r a.x

/-- `secp256k1_ge_mul_lambda`, group_impl.h:915-922 -/
def geMulLambdaV (a : Ge (FeV α)) : Option (Ge (FeV α)) := do
  check (geVerify a)
  let x ← feMul a.x (feConstV constBeta)
  retGe { a with x := x }

variable [FeMem α]

/-- `secp256k1_ge_set_xo_var`, group_impl.h:347-365 -/
def geSetXoVarV (x : FeV α) (odd : Bool) : Option (Ge (FeV α) × Bool) := do
  check x.verify
  let x2 ← feSqr x
  let x3 ← feMul x x2
  let x3 ← feAddInt x3 curveB
  let s ← feSqrt x3
  let y ← feNormalize s.1
  let o ← feIsOddV y
  let y ← bif o != odd then feNegate y 1 else some y
  let r ← retGe ⟨x, y, false⟩
  some (r, s.2)

/-- `secp256k1_ge_x_on_curve_var`, group_impl.h:948-954 -/
def geXOnCurveVarV (x : FeV α) : Option Bool := do
  let c ← feSqr x
  let c ← feMul c x
  let c ← feAddInt c curveB
  feIsSquareVarV c

/-- `secp256k1_ge_x_frac_on_curve_var`, group_impl.h:956-973 -/
def geXFracOnCurveVarV (xn xd : FeV α) : Option Bool := do
  let z ← feNormalizesToZero xd
  check (!z)
  let r ← feMul xd xn
  let t ← feSqr xn
  let r ← feMul r t
  let t ← feSqr xd
  let t ← feSqr t
  let t ← feMulInt t curveB
  let r ← feAdd r t
  feIsSquareVarV r

end

end Secp.Model.Verify
