import Mathlib.Algebra.Field.Defs

/-!
# The field interface used by the group code (`/repo/src/field.h`)

The C group code is written against the `secp256k1_fe_*` interface of `field.h`.  The model of the
group code is likewise written against this class, so that it can be run either on field *values*
(the instance `instFeOpsField` below) or on the five 52-bit limbs of `field_5x52.h`
(see `Verif/Model/Field5x52.lean`).
-/

namespace Secp.Model

/-- The arithmetic part of the interface of `/repo/src/field.h:105-340`.  The magnitude argument
of `negate` is kept because the limb implementation depends on it. -/
class FeOps (α : Type) where
  /-- `secp256k1_fe_set_int`, field.h:144 -/
  setInt : Nat → α
  /-- `secp256k1_fe_normalize_weak`, field.h:118 -/
  normalizeWeak : α → α
  /-- `secp256k1_fe_normalize` and `secp256k1_fe_normalize_var`, field.h:111,124 -/
  normalize : α → α
  /-- `secp256k1_fe_normalizes_to_zero` and `_var`, field.h:131,137 -/
  normalizesToZero : α → Bool
  /-- `secp256k1_fe_negate(r, a, m)`, field.h:211-217 -/
  negate : α → Nat → α
  /-- `secp256k1_fe_add_int`, field.h:224 -/
  addInt : α → Nat → α
  /-- `secp256k1_fe_mul_int`, field.h:233-239 -/
  mulInt : α → Nat → α
  /-- `secp256k1_fe_add(r, a)`: the new value of `r`, field.h:248 -/
  add : α → α → α
  /-- `secp256k1_fe_mul`, field.h:258 -/
  mul : α → α → α
  /-- `secp256k1_fe_sqr`, field.h:267 -/
  sqr : α → α
  /-- `secp256k1_fe_half`, field.h:329 -/
  half : α → α
  /-- `secp256k1_fe_cmov(r, a, flag)`: the new value of `r`, field.h:321 -/
  cmov : α → α → Bool → α
  /-- `secp256k1_fe_inv`, field.h:287 -/
  inv : α → α
  /-- `secp256k1_fe_inv_var`, field.h:293 -/
  invVar : α → α
  /-- `SECP256K1_FE_CONST`, field.h:50-66: the element that stands for a number below `2^256`, given by
  its eight 32-bit words -/
  feConst : Nat → α
  /-- `secp256k1_fe_from_storage`, field.h:308, of a `SECP256K1_FE_STORAGE_CONST` with the same words -/
  ofStorage : Nat → α

/-- The value-level meaning of the field interface in a field: every operation is the field
operation of the same name, normalisation is the identity. -/
instance instFeOpsField {F : Type} [Field F] [DecidableEq F] : FeOps F where
  setInt k := (k : F)
  normalizeWeak a := a
  normalize a := a
  normalizesToZero a := decide (a = 0)
  negate a _ := -a
  addInt a k := a + (k : F)
  mulInt a k := a * (k : F)
  add r a := r + a
  mul a b := a * b
  sqr a := a * a
  half a := a / 2
  cmov r a flag := if flag then a else r
  inv a := a⁻¹
  invVar a := a⁻¹
  feConst k := (k : F)
  ofStorage k := (k : F)

namespace FeOps
variable {α : Type} [FeOps α]

/-- `secp256k1_fe_equal`, /repo/src/field_impl.h:25-35 (the generic implementation). -/
def equal (a b : α) : Bool :=
  let na := negate a 1
  let na := add na b
  normalizesToZero na

/-- The loop `for (j=0; j<k; j++) secp256k1_fe_sqr(&x, &x);` of `secp256k1_fe_sqrt`. -/
def sqrN (a : α) : Nat → α
  | 0 => a
  | k + 1 => sqr (sqrN a k)

/-- `secp256k1_fe_sqrt`, /repo/src/field_impl.h:37-146: the value left in `r` and the return
value.  The `VERIFY` block at 138-144 is not compiled in the modelled configuration. -/
def sqrt (a : α) : α × Bool :=
  let x2 := sqr a
  let x2 := mul x2 a
  let x3 := sqr x2
  let x3 := mul x3 a
  let x6 := mul (sqrN x3 3) x3
  let x9 := mul (sqrN x6 3) x3
  let x11 := mul (sqrN x9 2) x2
  let x22 := mul (sqrN x11 11) x11
  let x44 := mul (sqrN x22 22) x22
  let x88 := mul (sqrN x44 44) x44
  let x176 := mul (sqrN x88 88) x88
  let x220 := mul (sqrN x176 44) x44
  let x223 := mul (sqrN x220 3) x3
  let t1 := mul (sqrN x223 23) x22
  let t1 := mul (sqrN t1 6) x2
  let t1 := sqr t1
  let r := sqr t1
  let t1 := sqr r
  (r, equal t1 a)

end FeOps
end Secp.Model
