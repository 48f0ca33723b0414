import Verif.Spec.Curve

/-!
# Model of the scalar interface (`/repo/src/scalar.h`) at the level of values

A `secp256k1_scalar` holds a number in `[0, n)`, here an element of `Fn = ZMod n`.  That the limb
code of `scalar_4x64_impl.h` computes these functions is property C44
(`Verif/Model/Scalar4x64.lean`).
-/

namespace Secp.Model

/-- A scalar constant written as an integer (`SECP256K1_SCALAR_CONST`, scalar_4x64.h:17). -/
def scConst (v : Nat) : Fn := (v : Fn)

/-- `secp256k1_scalar_get_bits_limb32` and `secp256k1_scalar_get_bits_var`,
scalar_4x64_impl.h:41-60 -/
def scGetBits (a : Fn) (offset count : Nat) : Nat := a.val / 2 ^ offset % 2 ^ count

/-- `secp256k1_scalar_is_zero`, scalar_4x64_impl.h:167-171 -/
def scIsZero (a : Fn) : Bool := a.val == 0

/-- `secp256k1_scalar_is_even`, scalar_4x64_impl.h:994-998 -/
def scIsEven (a : Fn) : Bool := a.val % 2 == 0

/-- `secp256k1_scalar_is_high`, scalar_4x64_impl.h:241-253: greater than `(n-1)/2` -/
def scIsHigh (a : Fn) : Bool := decide (a.val > n / 2)

/-- `secp256k1_scalar_mul_shift_var`, scalar_4x64_impl.h:889-909: `round(a*b / 2^shift)` -/
def scMulShift (a b : Fn) (shift : Nat) : Fn :=
  ((a.val * b.val / 2 ^ shift + a.val * b.val / 2 ^ (shift - 1) % 2 : Nat) : Fn)

/-- `secp256k1_scalar_split_128`, scalar_4x64_impl.h:866-880 -/
def scSplit128 (k : Fn) : Fn × Fn := (((k.val % 2 ^ 128 : Nat) : Fn), ((k.val / 2 ^ 128 : Nat) : Fn))

/-- `secp256k1_scalar_half`, scalar_4x64_impl.h:194-233 -/
def scHalf (a : Fn) : Fn :=
  if a.val % 2 = 0 then ((a.val / 2 : Nat) : Fn) else (((a.val + n) / 2 : Nat) : Fn)

/-- `secp256k1_scalar_cmov`, scalar_4x64_impl.h:911-925 -/
def scCmov (r a : Fn) (flag : Bool) : Fn := if flag then a else r

/-- `secp256k1_scalar_cond_negate`, scalar_4x64_impl.h:255-280: the new value; C returns
`1` or `-1` according to `flag`. -/
def scCondNegate (a : Fn) (flag : Bool) : Fn := if flag then -a else a

/-- `secp256k1_const_lambda`, scalar_impl.h:83-86 -/
def constLambda : Nat := 0x5363AD4CC05C30E0A5261C028812645A122E22EA20816678DF02967C1B23BD72

/-- `minus_b1`, scalar_impl.h:144-147 -/
def minusB1 : Nat := 0xE4437ED6010E88286F547FA90ABFE4C3
/-- `minus_b2`, scalar_impl.h:148-151 -/
def minusB2 : Nat := 0xFFFFFFFFFFFFFFFFFFFFFFFFFFFFFFFE8A280AC50774346DD765CDA83DB1562C
/-- `g1`, scalar_impl.h:152-155 -/
def splitG1 : Nat := 0x3086D221A7D46BCDE86C90E49284EB153DAA8A1471E8CA7FE893209A45DBB031
/-- `g2`, scalar_impl.h:156-159 -/
def splitG2 : Nat := 0xE4437ED6010E88286F547FA90ABFE4C4221208AC9DF506C61571B4AE8AC47F71

/-- `secp256k1_scalar_split_lambda`, scalar_impl.h:142-180: the pair `(r1, r2)`. -/
def scSplitLambda (k : Fn) : Fn × Fn :=
  let c1 := scMulShift k (scConst splitG1) 384
  let c2 := scMulShift k (scConst splitG2) 384
  let c1 := c1 * scConst minusB1
  let c2 := c2 * scConst minusB2
  let r2 := c1 + c2
  let r1 := r2 * scConst constLambda
  let r1 := -r1
  let r1 := r1 + k
  (r1, r2)

end Secp.Model
