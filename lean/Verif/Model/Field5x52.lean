import Verif.Model.FeOps
import Verif.Model.Bytes

/-!
# Model of the limb implementation of field elements

`/repo/src/field_5x52.h`, `/repo/src/field_5x52_impl.h`, `/repo/src/field_5x52_int128_impl.h` and the
native 128-bit integers of `/repo/src/int128_native_impl.h`.

A `uint64_t` is a natural number; every operation that can wrap around is followed by `u64`, the
reduction modulo `2^64` of C, and every 128-bit accumulation by the reduction modulo `2^128`.
Nothing is assumed about the size of the inputs.  The fields `magnitude` and `normalized` exist only
in `VERIFY` builds and are not modelled; the bounds they stand for are the hypotheses of the theorems.
-/

namespace Secp.Model

/-- Conversion of an exact result to `uint64_t` -/
def u64 (x : Nat) : Nat := x % 2 ^ 64

/-- `secp256k1_u128_mul`, int128_native_impl.h:11-13 (the product of two `uint64_t` always fits) -/
def u128Mul (a b : Nat) : Nat := a * b % 2 ^ 128
/-- `secp256k1_u128_accum_mul`, int128_native_impl.h:15-17 -/
def u128AccumMul (r a b : Nat) : Nat := (r + a * b) % 2 ^ 128
/-- `secp256k1_u128_accum_u64`, int128_native_impl.h:19-21 -/
def u128AccumU64 (r a : Nat) : Nat := (r + a) % 2 ^ 128
/-- `secp256k1_u128_rshift`, int128_native_impl.h:23-26 -/
def u128Rshift (r n : Nat) : Nat := r >>> n
/-- `secp256k1_u128_to_u64`, int128_native_impl.h:28-30 -/
def u128ToU64 (a : Nat) : Nat := u64 a

/-- `secp256k1_fe`, field_5x52.h:14-33: five limbs in base `2^52`. -/
@[ext]
structure Fe5 where
  n0 : Nat
  n1 : Nat
  n2 : Nat
  n3 : Nat
  n4 : Nat
deriving DecidableEq, Repr

/-- `secp256k1_fe_storage`, field_5x52.h:44-46 -/
structure FeStorage where
  n0 : Nat
  n1 : Nat
  n2 : Nat
  n3 : Nat
deriving DecidableEq, Repr

/-- `0xFFFFFFFFFFFFFULL` -/
def m52 : Nat := 0xFFFFFFFFFFFFF
/-- `0x0FFFFFFFFFFFFULL` -/
def m48 : Nat := 0x0FFFFFFFFFFFF
/-- `0x1000003D1ULL`, which is `2^256 - p` -/
def feC : Nat := 0x1000003D1
/-- `0xFFFFEFFFFFC2FULL`, the lowest limb of `p` -/
def feP0 : Nat := 0xFFFFEFFFFFC2F

namespace Fe5

/-- The first pass of the normalizations, field_5x52_impl.h:46-54. -/
def pass1 (r : Fe5) : Fe5 :=
  let x := r.n4 >>> 48
  let t4 := r.n4 &&& m48
  let t0 := u64 (r.n0 + u64 (x * feC))
  let t1 := u64 (r.n1 + (t0 >>> 52))
  let t0 := t0 &&& m52
  let t2 := u64 (r.n2 + (t1 >>> 52))
  let t1 := t1 &&& m52
  let t3 := u64 (r.n3 + (t2 >>> 52))
  let t2 := t2 &&& m52
  let t4 := u64 (t4 + (t3 >>> 52))
  let t3 := t3 &&& m52
  ⟨t0, t1, t2, t3, t4⟩

/-- The test for a final reduction, field_5x52_impl.h:60-61 and 126-127. -/
def needsReduce (t : Fe5) : Nat :=
  (t.n4 >>> 48) |||
    ((if t.n4 = m48 then 1 else 0) &&& (if t.n1 &&& t.n2 &&& t.n3 = m52 then 1 else 0) &&&
      (if t.n0 ≥ feP0 then 1 else 0))

/-- The final reduction with the carry `x`, field_5x52_impl.h:64-74. -/
def pass2 (t : Fe5) (x : Nat) : Fe5 :=
  let t0 := u64 (t.n0 + u64 (x * feC))
  let t1 := u64 (t.n1 + (t0 >>> 52))
  let t0 := t0 &&& m52
  let t2 := u64 (t.n2 + (t1 >>> 52))
  let t1 := t1 &&& m52
  let t3 := u64 (t.n3 + (t2 >>> 52))
  let t2 := t2 &&& m52
  let t4 := u64 (t.n4 + (t3 >>> 52))
  let t3 := t3 &&& m52
  let t4 := t4 &&& m48
  ⟨t0, t1, t2, t3, t4⟩

/-- `secp256k1_fe_impl_normalize`, field_5x52_impl.h:43-78 -/
def normalize (r : Fe5) : Fe5 :=
  let t := r.pass1
  t.pass2 t.needsReduce

/-- `secp256k1_fe_impl_normalize_weak`, field_5x52_impl.h:80-97 -/
def normalizeWeak (r : Fe5) : Fe5 := r.pass1

/-- `secp256k1_fe_impl_normalize_var`, field_5x52_impl.h:99-135 -/
def normalizeVar (r : Fe5) : Fe5 :=
  let t := r.pass1
  if t.needsReduce ≠ 0 then t.pass2 1 else t

/-- `secp256k1_fe_impl_normalizes_to_zero`, field_5x52_impl.h:137-158 -/
def normalizesToZero (r : Fe5) : Bool :=
  let t := r.pass1
  let z0 := t.n0 ||| t.n1 ||| t.n2 ||| t.n3 ||| t.n4
  let z1 := (t.n0 ^^^ 0x1000003D0) &&& t.n1 &&& t.n2 &&& t.n3 &&& (t.n4 ^^^ 0xF000000000000)
  decide (z0 = 0) || decide (z1 = m52)

/-- `secp256k1_fe_impl_normalizes_to_zero_var`, field_5x52_impl.h:160-199 -/
def normalizesToZeroVar (r : Fe5) : Bool :=
  let x := r.n4 >>> 48
  let t0 := u64 (r.n0 + u64 (x * feC))
  let z0 := t0 &&& m52
  let z1 := z0 ^^^ 0x1000003D0
  if z0 ≠ 0 ∧ z1 ≠ m52 then false
  else
    let t4 := r.n4 &&& m48
    let t1 := u64 (r.n1 + (t0 >>> 52))
    let t2 := u64 (r.n2 + (t1 >>> 52))
    let t1 := t1 &&& m52
    let z0 := z0 ||| t1
    let z1 := z1 &&& t1
    let t3 := u64 (r.n3 + (t2 >>> 52))
    let t2 := t2 &&& m52
    let z0 := z0 ||| t2
    let z1 := z1 &&& t2
    let t4 := u64 (t4 + (t3 >>> 52))
    let t3 := t3 &&& m52
    let z0 := z0 ||| t3
    let z1 := z1 &&& t3
    let z0 := z0 ||| t4
    let z1 := z1 &&& (t4 ^^^ 0xF000000000000)
    decide (z0 = 0) || decide (z1 = m52)

/-- `secp256k1_fe_impl_set_int`, field_5x52_impl.h:201-204 (`a` is between 0 and `0x7FFF`) -/
def setInt (a : Nat) : Fe5 := ⟨u64 a, 0, 0, 0, 0⟩

/-- `secp256k1_fe_impl_is_zero`, field_5x52_impl.h:206-209 -/
def isZero (a : Fe5) : Bool := decide (a.n0 ||| a.n1 ||| a.n2 ||| a.n3 ||| a.n4 = 0)

/-- `secp256k1_fe_impl_is_odd`, field_5x52_impl.h:211-213 -/
def isOdd (a : Fe5) : Bool := decide (a.n0 &&& 1 ≠ 0)

/-- The loop of `secp256k1_fe_impl_cmp_var`, field_5x52_impl.h:215-226, on the limbs from the most
significant one on. -/
def cmpLimbs : List (Nat × Nat) → Int
  | [] => 0
  | (x, y) :: l => if x > y then 1 else if x < y then -1 else cmpLimbs l

/-- `secp256k1_fe_impl_cmp_var`, field_5x52_impl.h:215-226 -/
def cmpVar (a b : Fe5) : Int :=
  cmpLimbs [(a.n4, b.n4), (a.n3, b.n3), (a.n2, b.n2), (a.n1, b.n1), (a.n0, b.n0)]

/-- `secp256k1_fe_impl_set_b32_mod`, field_5x52_impl.h:228-263.  `a i` is the byte at index `i`. -/
def setB32Mod (a : Nat → Nat) : Fe5 :=
  ⟨a 31 ||| (a 30 <<< 8) ||| (a 29 <<< 16) ||| (a 28 <<< 24) ||| (a 27 <<< 32) ||| (a 26 <<< 40)
      ||| ((a 25 &&& 0xF) <<< 48),
    ((a 25 >>> 4) &&& 0xF) ||| (a 24 <<< 4) ||| (a 23 <<< 12) ||| (a 22 <<< 20) ||| (a 21 <<< 28)
      ||| (a 20 <<< 36) ||| (a 19 <<< 44),
    a 18 ||| (a 17 <<< 8) ||| (a 16 <<< 16) ||| (a 15 <<< 24) ||| (a 14 <<< 32) ||| (a 13 <<< 40)
      ||| ((a 12 &&& 0xF) <<< 48),
    ((a 12 >>> 4) &&& 0xF) ||| (a 11 <<< 4) ||| (a 10 <<< 12) ||| (a 9 <<< 20) ||| (a 8 <<< 28)
      ||| (a 7 <<< 36) ||| (a 6 <<< 44),
    a 5 ||| (a 4 <<< 8) ||| (a 3 <<< 16) ||| (a 2 <<< 24) ||| (a 1 <<< 32) ||| (a 0 <<< 40)⟩

/-- The return value of `secp256k1_fe_impl_set_b32_limit` for the limbs set,
field_5x52_impl.h:265-269 -/
def setB32LimitRet (r : Fe5) : Bool :=
  !(decide (r.n4 = m48) && decide (r.n3 &&& r.n2 &&& r.n1 = m52) && decide (r.n0 ≥ feP0))

/-- `secp256k1_fe_impl_get_b32`, field_5x52_impl.h:271-304 -/
def getB32 (a : Fe5) : List Nat :=
  [(a.n4 >>> 40) &&& 0xFF, (a.n4 >>> 32) &&& 0xFF, (a.n4 >>> 24) &&& 0xFF, (a.n4 >>> 16) &&& 0xFF,
    (a.n4 >>> 8) &&& 0xFF, a.n4 &&& 0xFF,
    (a.n3 >>> 44) &&& 0xFF, (a.n3 >>> 36) &&& 0xFF, (a.n3 >>> 28) &&& 0xFF, (a.n3 >>> 20) &&& 0xFF,
    (a.n3 >>> 12) &&& 0xFF, (a.n3 >>> 4) &&& 0xFF,
    ((a.n2 >>> 48) &&& 0xF) ||| ((a.n3 &&& 0xF) <<< 4),
    (a.n2 >>> 40) &&& 0xFF, (a.n2 >>> 32) &&& 0xFF, (a.n2 >>> 24) &&& 0xFF, (a.n2 >>> 16) &&& 0xFF,
    (a.n2 >>> 8) &&& 0xFF, a.n2 &&& 0xFF,
    (a.n1 >>> 44) &&& 0xFF, (a.n1 >>> 36) &&& 0xFF, (a.n1 >>> 28) &&& 0xFF, (a.n1 >>> 20) &&& 0xFF,
    (a.n1 >>> 12) &&& 0xFF, (a.n1 >>> 4) &&& 0xFF,
    ((a.n0 >>> 48) &&& 0xF) ||| ((a.n1 &&& 0xF) <<< 4),
    (a.n0 >>> 40) &&& 0xFF, (a.n0 >>> 32) &&& 0xFF, (a.n0 >>> 24) &&& 0xFF, (a.n0 >>> 16) &&& 0xFF,
    (a.n0 >>> 8) &&& 0xFF, a.n0 &&& 0xFF]

/-- Subtraction of `uint64_t` values -/
def sub64 (a b : Nat) : Nat := (a + (2 ^ 64 - b)) % 2 ^ 64

/-- `secp256k1_fe_impl_negate_unchecked`, field_5x52_impl.h:306-319 -/
def negate (a : Fe5) (m : Nat) : Fe5 :=
  ⟨sub64 (u64 (feP0 * 2 * (m + 1))) a.n0, sub64 (u64 (m52 * 2 * (m + 1))) a.n1,
    sub64 (u64 (m52 * 2 * (m + 1))) a.n2, sub64 (u64 (m52 * 2 * (m + 1))) a.n3,
    sub64 (u64 (m48 * 2 * (m + 1))) a.n4⟩

/-- `secp256k1_fe_impl_mul_int_unchecked`, field_5x52_impl.h:321-327 -/
def mulInt (r : Fe5) (a : Nat) : Fe5 :=
  ⟨u64 (r.n0 * a), u64 (r.n1 * a), u64 (r.n2 * a), u64 (r.n3 * a), u64 (r.n4 * a)⟩

/-- `secp256k1_fe_impl_add_int`, field_5x52_impl.h:329-331 -/
def addInt (r : Fe5) (a : Nat) : Fe5 := { r with n0 := u64 (r.n0 + a) }

/-- `secp256k1_fe_impl_add`, field_5x52_impl.h:333-339 -/
def add (r a : Fe5) : Fe5 :=
  ⟨u64 (r.n0 + a.n0), u64 (r.n1 + a.n1), u64 (r.n2 + a.n2), u64 (r.n3 + a.n3), u64 (r.n4 + a.n4)⟩

/-- `R`, field_5x52_int128_impl.h:22 -/
def mulR : Nat := 0x1000003D10

/-- `secp256k1_fe_mul_inner`, field_5x52_int128_impl.h:18-152 -/
def mul (a b : Fe5) : Fe5 :=
  let d := u128Mul a.n0 b.n3
  let d := u128AccumMul d a.n1 b.n2
  let d := u128AccumMul d a.n2 b.n1
  let d := u128AccumMul d a.n3 b.n0
  let c := u128Mul a.n4 b.n4
  let d := u128AccumMul d mulR (u128ToU64 c)
  let c := u128Rshift c 64
  let t3 := u128ToU64 d &&& m52
  let d := u128Rshift d 52
  let d := u128AccumMul d a.n0 b.n4
  let d := u128AccumMul d a.n1 b.n3
  let d := u128AccumMul d a.n2 b.n2
  let d := u128AccumMul d a.n3 b.n1
  let d := u128AccumMul d a.n4 b.n0
  let d := u128AccumMul d (u64 (mulR <<< 12)) (u128ToU64 c)
  let t4 := u128ToU64 d &&& m52
  let d := u128Rshift d 52
  let tx := t4 >>> 48
  let t4 := t4 &&& (m52 >>> 4)
  let c := u128Mul a.n0 b.n0
  let d := u128AccumMul d a.n1 b.n4
  let d := u128AccumMul d a.n2 b.n3
  let d := u128AccumMul d a.n3 b.n2
  let d := u128AccumMul d a.n4 b.n1
  let u0 := u128ToU64 d &&& m52
  let d := u128Rshift d 52
  let u0 := u64 (u0 <<< 4) ||| tx
  let c := u128AccumMul c u0 (mulR >>> 4)
  let r0 := u128ToU64 c &&& m52
  let c := u128Rshift c 52
  let c := u128AccumMul c a.n0 b.n1
  let c := u128AccumMul c a.n1 b.n0
  let d := u128AccumMul d a.n2 b.n4
  let d := u128AccumMul d a.n3 b.n3
  let d := u128AccumMul d a.n4 b.n2
  let c := u128AccumMul c (u128ToU64 d &&& m52) mulR
  let d := u128Rshift d 52
  let r1 := u128ToU64 c &&& m52
  let c := u128Rshift c 52
  let c := u128AccumMul c a.n0 b.n2
  let c := u128AccumMul c a.n1 b.n1
  let c := u128AccumMul c a.n2 b.n0
  let d := u128AccumMul d a.n3 b.n4
  let d := u128AccumMul d a.n4 b.n3
  let c := u128AccumMul c mulR (u128ToU64 d)
  let d := u128Rshift d 64
  let r2 := u128ToU64 c &&& m52
  let c := u128Rshift c 52
  let c := u128AccumMul c (u64 (mulR <<< 12)) (u128ToU64 d)
  let c := u128AccumU64 c t3
  let r3 := u128ToU64 c &&& m52
  let c := u128Rshift c 52
  let r4 := u64 (u128ToU64 c + t4)
  ⟨r0, r1, r2, r3, r4⟩

/-- `secp256k1_fe_sqr_inner`, field_5x52_int128_impl.h:154-272 -/
def sqr (a : Fe5) : Fe5 :=
  let a0 := a.n0
  let a4 := a.n4
  let d := u128Mul (u64 (a0 * 2)) a.n3
  let d := u128AccumMul d (u64 (a.n1 * 2)) a.n2
  let c := u128Mul a4 a4
  let d := u128AccumMul d mulR (u128ToU64 c)
  let c := u128Rshift c 64
  let t3 := u128ToU64 d &&& m52
  let d := u128Rshift d 52
  let a4 := u64 (a4 * 2)
  let d := u128AccumMul d a0 a4
  let d := u128AccumMul d (u64 (a.n1 * 2)) a.n3
  let d := u128AccumMul d a.n2 a.n2
  let d := u128AccumMul d (u64 (mulR <<< 12)) (u128ToU64 c)
  let t4 := u128ToU64 d &&& m52
  let d := u128Rshift d 52
  let tx := t4 >>> 48
  let t4 := t4 &&& (m52 >>> 4)
  let c := u128Mul a0 a0
  let d := u128AccumMul d a.n1 a4
  let d := u128AccumMul d (u64 (a.n2 * 2)) a.n3
  let u0 := u128ToU64 d &&& m52
  let d := u128Rshift d 52
  let u0 := u64 (u0 <<< 4) ||| tx
  let c := u128AccumMul c u0 (mulR >>> 4)
  let r0 := u128ToU64 c &&& m52
  let c := u128Rshift c 52
  let a0 := u64 (a0 * 2)
  let c := u128AccumMul c a0 a.n1
  let d := u128AccumMul d a.n2 a4
  let d := u128AccumMul d a.n3 a.n3
  let c := u128AccumMul c (u128ToU64 d &&& m52) mulR
  let d := u128Rshift d 52
  let r1 := u128ToU64 c &&& m52
  let c := u128Rshift c 52
  let c := u128AccumMul c a0 a.n2
  let c := u128AccumMul c a.n1 a.n1
  let d := u128AccumMul d a.n3 a4
  let c := u128AccumMul c mulR (u128ToU64 d)
  let d := u128Rshift d 64
  let r2 := u128ToU64 c &&& m52
  let c := u128Rshift c 52
  let c := u128AccumMul c (u64 (mulR <<< 12)) (u128ToU64 d)
  let c := u128AccumU64 c t3
  let r3 := u128ToU64 c &&& m52
  let c := u128Rshift c 52
  let r4 := u64 (u128ToU64 c + t4)
  ⟨r0, r1, r2, r3, r4⟩

/-- One limb of the conditional moves, field_5x52_impl.h:355-359: `mask0 = flag + ~0` -/
def cmovLimb (r a : Nat) (flag : Nat) : Nat :=
  let mask0 := u64 (flag + (2 ^ 64 - 1))
  let mask1 := (2 ^ 64 - 1) ^^^ mask0
  (r &&& mask0) ||| (a &&& mask1)

/-- `secp256k1_fe_impl_cmov`, field_5x52_impl.h:349-360; `flag` is 0 or 1 -/
def cmov (r a : Fe5) (flag : Nat) : Fe5 :=
  ⟨cmovLimb r.n0 a.n0 flag, cmovLimb r.n1 a.n1 flag, cmovLimb r.n2 a.n2 flag,
    cmovLimb r.n3 a.n3 flag, cmovLimb r.n4 a.n4 flag⟩

/-- `secp256k1_fe_impl_half`, field_5x52_impl.h:362-414 -/
def half (r : Fe5) : Fe5 :=
  let mask := sub64 0 (r.n0 &&& 1) >>> 12
  let t0 := u64 (r.n0 + (feP0 &&& mask))
  let t1 := u64 (r.n1 + mask)
  let t2 := u64 (r.n2 + mask)
  let t3 := u64 (r.n3 + mask)
  let t4 := u64 (r.n4 + (mask >>> 4))
  ⟨u64 ((t0 >>> 1) + ((t1 &&& 1) <<< 51)), u64 ((t1 >>> 1) + ((t2 &&& 1) <<< 51)),
    u64 ((t2 >>> 1) + ((t3 &&& 1) <<< 51)), u64 ((t3 >>> 1) + ((t4 &&& 1) <<< 51)), t4 >>> 1⟩

/-- `secp256k1_fe_impl_to_storage`, field_5x52_impl.h:428-433 -/
def toStorage (a : Fe5) : FeStorage :=
  ⟨a.n0 ||| u64 (a.n1 <<< 52), (a.n1 >>> 12) ||| u64 (a.n2 <<< 40),
    (a.n2 >>> 24) ||| u64 (a.n3 <<< 28), (a.n3 >>> 36) ||| u64 (a.n4 <<< 16)⟩

/-- `secp256k1_fe_impl_from_storage`, field_5x52_impl.h:435-441 -/
def fromStorage (a : FeStorage) : Fe5 :=
  ⟨a.n0 &&& m52, (a.n0 >>> 52) ||| (u64 (a.n1 <<< 12) &&& m52),
    (a.n1 >>> 40) ||| (u64 (a.n2 <<< 24) &&& m52), (a.n2 >>> 28) ||| (u64 (a.n3 <<< 36) &&& m52),
    a.n3 >>> 16⟩

/-- `secp256k1_fe_storage_cmov`, field_5x52_impl.h:416-426 -/
def storageCmov (r a : FeStorage) (flag : Nat) : FeStorage :=
  ⟨cmovLimb r.n0 a.n0 flag, cmovLimb r.n1 a.n1 flag, cmovLimb r.n2 a.n2 flag,
    cmovLimb r.n3 a.n3 flag⟩

/-- The 32-bit word number `i` of `x`. -/
def word32 (x i : Nat) : Nat := x / 2 ^ (32 * i) % 2 ^ 32

/-- `SECP256K1_FE_CONST_INNER`, field_5x52.h:37-43, where `x` is the number with the words `d7 … d0` -/
def feConst (x : Nat) : Fe5 :=
  ⟨word32 x 0 ||| u64 ((word32 x 1 &&& 0xFFFFF) <<< 32),
   (word32 x 1 >>> 20) ||| u64 (word32 x 2 <<< 12) ||| u64 ((word32 x 3 &&& 0xFF) <<< 44),
   (word32 x 3 >>> 8) ||| u64 ((word32 x 4 &&& 0xFFFFFFF) <<< 24),
   (word32 x 4 >>> 28) ||| u64 (word32 x 5 <<< 4) ||| u64 ((word32 x 6 &&& 0xFFFF) <<< 36),
   (word32 x 6 >>> 16) ||| u64 (word32 x 7 <<< 16)⟩

/-- `SECP256K1_FE_STORAGE_CONST`, field_5x52.h:49-54 -/
def storageConst (x : Nat) : FeStorage :=
  ⟨word32 x 0 ||| u64 (word32 x 1 <<< 32), word32 x 2 ||| u64 (word32 x 3 <<< 32),
   word32 x 4 ||| u64 (word32 x 5 <<< 32), word32 x 6 ||| u64 (word32 x 7 <<< 32)⟩

/-- The inversion routines, a parameter of the limb interface: `secp256k1_fe_impl_inv` and
`secp256k1_fe_impl_inv_var`, field_5x52_impl.h:479-497. -/
class LimbInv where
  inv : Fe5 → Fe5
  invVar : Fe5 → Fe5

/-- The interface of `field.h` on limbs.  The flag of `cmov` is a truth value, as `field.h:318`
requires. -/
instance instFeOpsFe5 [LimbInv] : FeOps Fe5 where
  setInt := setInt
  normalizeWeak := normalizeWeak
  normalize := normalize
  normalizesToZero := normalizesToZero
  negate := negate
  addInt := addInt
  mulInt := mulInt
  add := add
  mul := mul
  sqr := sqr
  half := half
  cmov r a flag := cmov r a (if flag then 1 else 0)
  inv := LimbInv.inv
  invVar := LimbInv.invVar
  feConst := feConst
  ofStorage x := fromStorage (storageConst x)

end Fe5
end Secp.Model
