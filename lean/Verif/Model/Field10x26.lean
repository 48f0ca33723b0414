import Verif.Model.Field5x52
import Verif.Model.Int128Struct

/-!
# Model of the 32-bit limb implementation of field elements

`/repo/src/field_10x26.h` and `/repo/src/field_10x26_impl.h`, used on targets without 128-bit integers.
Native code only (`USE_EXTERNAL_ASM` is off).

A `uint32_t` or `uint64_t` is a natural number; every operation that can wrap around is followed by `u32` or
`u64`.  A sum of several terms is reduced once: reducing after every `+`, as the machine does, gives the same
result.  Nothing is assumed about the size of the inputs.  The constants with suffix `UL` may be 64 bits wide;
every result is stored in 32 bits, and the comparisons cannot wrap around, so that this makes no difference.
The fields `magnitude` and `normalized` exist only in `VERIFY` builds; the bounds they stand for are the
hypotheses of the theorems.
-/

namespace Secp.Model

/-- `secp256k1_fe`, field_10x26.h:15-36: ten limbs in base `2^26`. -/
@[ext]
structure Fe10 where
  n0 : Nat
  n1 : Nat
  n2 : Nat
  n3 : Nat
  n4 : Nat
  n5 : Nat
  n6 : Nat
  n7 : Nat
  n8 : Nat
  n9 : Nat
deriving DecidableEq, Repr

/-- `secp256k1_fe_storage`, field_10x26.h:54-56 -/
@[ext]
structure FeStorage8 where
  n0 : Nat
  n1 : Nat
  n2 : Nat
  n3 : Nat
  n4 : Nat
  n5 : Nat
  n6 : Nat
  n7 : Nat
deriving DecidableEq, Repr

/-- `0x3FFFFFFUL` -/
def m26 : Nat := 0x3FFFFFF
/-- `0x03FFFFFUL` -/
def m22 : Nat := 0x03FFFFF

namespace Fe10

/-- Adding `x * (2^256 - p)` and carrying, field_10x26_impl.h:62-71, 84-93, 111-120, 137-146, 156-165 and
189-198.  `t9` is the top limb without the bits that were reduced. -/
def carry (r : Fe10) (x t9 : Nat) : Fe10 :=
  let t0 := u32 (r.n0 + x * 0x3D1)
  let t1 := u32 (r.n1 + x <<< 6)
  let t1 := u32 (t1 + (t0 >>> 26))
  let t0 := t0 &&& m26
  let t2 := u32 (r.n2 + (t1 >>> 26))
  let t1 := t1 &&& m26
  let t3 := u32 (r.n3 + (t2 >>> 26))
  let t2 := t2 &&& m26
  let t4 := u32 (r.n4 + (t3 >>> 26))
  let t3 := t3 &&& m26
  let t5 := u32 (r.n5 + (t4 >>> 26))
  let t4 := t4 &&& m26
  let t6 := u32 (r.n6 + (t5 >>> 26))
  let t5 := t5 &&& m26
  let t7 := u32 (r.n7 + (t6 >>> 26))
  let t6 := t6 &&& m26
  let t8 := u32 (r.n8 + (t7 >>> 26))
  let t7 := t7 &&& m26
  let t9 := u32 (t9 + (t8 >>> 26))
  let t8 := t8 &&& m26
  ⟨t0, t1, t2, t3, t4, t5, t6, t7, t8, t9⟩

/-- The first pass of the normalizations, field_10x26_impl.h:59-71. -/
def pass1 (r : Fe10) : Fe10 := r.carry (r.n9 >>> 22) (r.n9 &&& m22)

/-- `m` of field_10x26_impl.h:65-71 -/
def mid (t : Fe10) : Nat := t.n2 &&& t.n3 &&& t.n4 &&& t.n5 &&& t.n6 &&& t.n7 &&& t.n8

/-- The test for a final reduction, field_10x26_impl.h:77-78 and 152-153. -/
def needsReduce (t : Fe10) : Nat :=
  (t.n9 >>> 22) |||
    ((if t.n9 = m22 then 1 else 0) &&& (if t.mid = m26 then 1 else 0) &&&
      (if t.n1 + 0x40 + ((t.n0 + 0x3D1) >>> 26) > m26 then 1 else 0))

/-- The final reduction with the carry `x`, field_10x26_impl.h:81-96. -/
def pass2 (t : Fe10) (x : Nat) : Fe10 :=
  let r := t.carry x t.n9
  { r with n9 := r.n9 &&& m22 }

/-- `secp256k1_fe_impl_normalize`, field_10x26_impl.h:53-100 -/
def normalize (r : Fe10) : Fe10 :=
  let t := r.pass1
  t.pass2 t.needsReduce

/-- `secp256k1_fe_impl_normalize_weak`, field_10x26_impl.h:102-126 -/
def normalizeWeak (r : Fe10) : Fe10 := r.pass1

/-- `secp256k1_fe_impl_normalize_var`, field_10x26_impl.h:128-176.  The `x` shifted on line 156 is 1:
`t9` is at most `2^22 + 62` after the first pass. -/
def normalizeVar (r : Fe10) : Fe10 :=
  let t := r.pass1
  if t.needsReduce ≠ 0 then t.pass2 1 else t

/-- `secp256k1_fe_impl_normalizes_to_zero`, field_10x26_impl.h:178-205 -/
def normalizesToZero (r : Fe10) : Bool :=
  let t := r.pass1
  let z0 := t.n0 ||| t.n1 ||| t.n2 ||| t.n3 ||| t.n4 ||| t.n5 ||| t.n6 ||| t.n7 ||| t.n8 ||| t.n9
  let z1 := (t.n0 ^^^ 0x3D0) &&& (t.n1 ^^^ 0x40) &&& t.n2 &&& t.n3 &&& t.n4 &&& t.n5 &&& t.n6 &&& t.n7 &&& t.n8
    &&& (t.n9 ^^^ 0x3C00000)
  decide (z0 = 0) || decide (z1 = m26)

/-- `secp256k1_fe_impl_normalizes_to_zero_var`, field_10x26_impl.h:207-257 -/
def normalizesToZeroVar (r : Fe10) : Bool :=
  let x := r.n9 >>> 22
  let t0 := u32 (r.n0 + x * 0x3D1)
  let z0 := t0 &&& m26
  let z1 := z0 ^^^ 0x3D0
  if z0 ≠ 0 ∧ z1 ≠ m26 then false
  else
    let t9 := r.n9 &&& m22
    let t1 := u32 (r.n1 + x <<< 6)
    let t1 := u32 (t1 + (t0 >>> 26))
    let t2 := u32 (r.n2 + (t1 >>> 26))
    let t1 := t1 &&& m26
    let z0 := z0 ||| t1
    let z1 := z1 &&& (t1 ^^^ 0x40)
    let t3 := u32 (r.n3 + (t2 >>> 26))
    let t2 := t2 &&& m26
    let z0 := z0 ||| t2
    let z1 := z1 &&& t2
    let t4 := u32 (r.n4 + (t3 >>> 26))
    let t3 := t3 &&& m26
    let z0 := z0 ||| t3
    let z1 := z1 &&& t3
    let t5 := u32 (r.n5 + (t4 >>> 26))
    let t4 := t4 &&& m26
    let z0 := z0 ||| t4
    let z1 := z1 &&& t4
    let t6 := u32 (r.n6 + (t5 >>> 26))
    let t5 := t5 &&& m26
    let z0 := z0 ||| t5
    let z1 := z1 &&& t5
    let t7 := u32 (r.n7 + (t6 >>> 26))
    let t6 := t6 &&& m26
    let z0 := z0 ||| t6
    let z1 := z1 &&& t6
    let t8 := u32 (r.n8 + (t7 >>> 26))
    let t7 := t7 &&& m26
    let z0 := z0 ||| t7
    let z1 := z1 &&& t7
    let t9 := u32 (t9 + (t8 >>> 26))
    let t8 := t8 &&& m26
    let z0 := z0 ||| t8
    let z1 := z1 &&& t8
    let z0 := z0 ||| t9
    let z1 := z1 &&& (t9 ^^^ 0x3C00000)
    decide (z0 = 0) || decide (z1 = m26)

/-- `secp256k1_fe_impl_set_int`, field_10x26_impl.h:259-262 (`a` is between 0 and `0x7FFF`) -/
def setInt (a : Nat) : Fe10 := ⟨u32 a, 0, 0, 0, 0, 0, 0, 0, 0, 0⟩

/-- `secp256k1_fe_impl_is_zero`, field_10x26_impl.h:264-267 -/
def isZero (a : Fe10) : Bool :=
  decide (a.n0 ||| a.n1 ||| a.n2 ||| a.n3 ||| a.n4 ||| a.n5 ||| a.n6 ||| a.n7 ||| a.n8 ||| a.n9 = 0)

/-- `secp256k1_fe_impl_is_odd`, field_10x26_impl.h:269-271 -/
def isOdd (a : Fe10) : Bool := decide (a.n0 &&& 1 ≠ 0)

/-- `secp256k1_fe_impl_cmp_var`, field_10x26_impl.h:273-284 -/
def cmpVar (a b : Fe10) : Int :=
  Fe5.cmpLimbs [(a.n9, b.n9), (a.n8, b.n8), (a.n7, b.n7), (a.n6, b.n6), (a.n5, b.n5), (a.n4, b.n4),
    (a.n3, b.n3), (a.n2, b.n2), (a.n1, b.n1), (a.n0, b.n0)]

/-- `secp256k1_fe_impl_set_b32_mod`, field_10x26_impl.h:286-297.  `a i` is the byte at index `i`. -/
def setB32Mod (a : Nat → Nat) : Fe10 :=
  ⟨a 31 ||| (a 30 <<< 8) ||| (a 29 <<< 16) ||| ((a 28 &&& 0x3) <<< 24),
    ((a 28 >>> 2) &&& 0x3f) ||| (a 27 <<< 6) ||| (a 26 <<< 14) ||| ((a 25 &&& 0xf) <<< 22),
    ((a 25 >>> 4) &&& 0xf) ||| (a 24 <<< 4) ||| (a 23 <<< 12) ||| ((a 22 &&& 0x3f) <<< 20),
    ((a 22 >>> 6) &&& 0x3) ||| (a 21 <<< 2) ||| (a 20 <<< 10) ||| (a 19 <<< 18),
    a 18 ||| (a 17 <<< 8) ||| (a 16 <<< 16) ||| ((a 15 &&& 0x3) <<< 24),
    ((a 15 >>> 2) &&& 0x3f) ||| (a 14 <<< 6) ||| (a 13 <<< 14) ||| ((a 12 &&& 0xf) <<< 22),
    ((a 12 >>> 4) &&& 0xf) ||| (a 11 <<< 4) ||| (a 10 <<< 12) ||| ((a 9 &&& 0x3f) <<< 20),
    ((a 9 >>> 6) &&& 0x3) ||| (a 8 <<< 2) ||| (a 7 <<< 10) ||| (a 6 <<< 18),
    a 5 ||| (a 4 <<< 8) ||| (a 3 <<< 16) ||| ((a 2 &&& 0x3) <<< 24),
    ((a 2 >>> 2) &&& 0x3f) ||| (a 1 <<< 6) ||| (a 0 <<< 14)⟩

/-- The return value of `secp256k1_fe_impl_set_b32_limit` for the limbs set, field_10x26_impl.h:299-302 -/
def setB32LimitRet (r : Fe10) : Bool :=
  !(decide (r.n9 = m22) && decide (r.n8 &&& r.n7 &&& r.n6 &&& r.n5 &&& r.n4 &&& r.n3 &&& r.n2 = m26) &&
    decide (r.n1 + 0x40 + ((r.n0 + 0x3D1) >>> 26) > m26))

/-- `secp256k1_fe_impl_get_b32`, field_10x26_impl.h:305-338 -/
def getB32 (a : Fe10) : List Nat :=
  [(a.n9 >>> 14) &&& 0xff, (a.n9 >>> 6) &&& 0xff, ((a.n9 &&& 0x3F) <<< 2) ||| ((a.n8 >>> 24) &&& 0x3),
    (a.n8 >>> 16) &&& 0xff, (a.n8 >>> 8) &&& 0xff, a.n8 &&& 0xff,
    (a.n7 >>> 18) &&& 0xff, (a.n7 >>> 10) &&& 0xff, (a.n7 >>> 2) &&& 0xff,
    ((a.n7 &&& 0x3) <<< 6) ||| ((a.n6 >>> 20) &&& 0x3f), (a.n6 >>> 12) &&& 0xff, (a.n6 >>> 4) &&& 0xff,
    ((a.n6 &&& 0xf) <<< 4) ||| ((a.n5 >>> 22) &&& 0xf), (a.n5 >>> 14) &&& 0xff, (a.n5 >>> 6) &&& 0xff,
    ((a.n5 &&& 0x3f) <<< 2) ||| ((a.n4 >>> 24) &&& 0x3), (a.n4 >>> 16) &&& 0xff, (a.n4 >>> 8) &&& 0xff,
    a.n4 &&& 0xff, (a.n3 >>> 18) &&& 0xff, (a.n3 >>> 10) &&& 0xff, (a.n3 >>> 2) &&& 0xff,
    ((a.n3 &&& 0x3) <<< 6) ||| ((a.n2 >>> 20) &&& 0x3f), (a.n2 >>> 12) &&& 0xff, (a.n2 >>> 4) &&& 0xff,
    ((a.n2 &&& 0xf) <<< 4) ||| ((a.n1 >>> 22) &&& 0xf), (a.n1 >>> 14) &&& 0xff, (a.n1 >>> 6) &&& 0xff,
    ((a.n1 &&& 0x3f) <<< 2) ||| ((a.n0 >>> 24) &&& 0x3), (a.n0 >>> 16) &&& 0xff, (a.n0 >>> 8) &&& 0xff,
    a.n0 &&& 0xff]

/-- Subtraction of `uint32_t` values -/
def sub32 (a b : Nat) : Nat := (a + (2 ^ 32 - b)) % 2 ^ 32

/-- `secp256k1_fe_impl_negate_unchecked`, field_10x26_impl.h:340-359 -/
def negate (a : Fe10) (m : Nat) : Fe10 :=
  ⟨sub32 (u32 (0x3FFFC2F * 2 * (m + 1))) a.n0,
    sub32 (u32 (0x3FFFFBF * 2 * (m + 1))) a.n1,
    sub32 (u32 (0x3FFFFFF * 2 * (m + 1))) a.n2,
    sub32 (u32 (0x3FFFFFF * 2 * (m + 1))) a.n3,
    sub32 (u32 (0x3FFFFFF * 2 * (m + 1))) a.n4,
    sub32 (u32 (0x3FFFFFF * 2 * (m + 1))) a.n5,
    sub32 (u32 (0x3FFFFFF * 2 * (m + 1))) a.n6,
    sub32 (u32 (0x3FFFFFF * 2 * (m + 1))) a.n7,
    sub32 (u32 (0x3FFFFFF * 2 * (m + 1))) a.n8,
    sub32 (u32 (0x03FFFFF * 2 * (m + 1))) a.n9⟩

/-- `secp256k1_fe_impl_mul_int_unchecked`, field_10x26_impl.h:361-372 -/
def mulInt (r : Fe10) (a : Nat) : Fe10 :=
  ⟨u32 (r.n0 * a), u32 (r.n1 * a), u32 (r.n2 * a), u32 (r.n3 * a), u32 (r.n4 * a),
    u32 (r.n5 * a), u32 (r.n6 * a), u32 (r.n7 * a), u32 (r.n8 * a), u32 (r.n9 * a)⟩

/-- `secp256k1_fe_impl_add`, field_10x26_impl.h:374-385 -/
def add (r a : Fe10) : Fe10 :=
  ⟨u32 (r.n0 + a.n0), u32 (r.n1 + a.n1), u32 (r.n2 + a.n2), u32 (r.n3 + a.n3), u32 (r.n4 + a.n4),
    u32 (r.n5 + a.n5), u32 (r.n6 + a.n6), u32 (r.n7 + a.n7), u32 (r.n8 + a.n8), u32 (r.n9 + a.n9)⟩

/-- `secp256k1_fe_impl_add_int`, field_10x26_impl.h:387-389 -/
def addInt (r : Fe10) (a : Nat) : Fe10 := { r with n0 := u32 (r.n0 + a) }

/-- One column of the multiplication, field_10x26_impl.h:445-693 and 775-967: the products of weight `2^(26k)`,
`pc`, are added to `c` and those of weight `2^(26(k+10))`, `pd`, to `d`; the low 26 bits of `d`, times
`R0 = 0x3D10` and `R1 = 0x400`, are added to `c` in this and the next column.  Result: the limb, `c`, `d`.
The program is unrolled; the columns differ only in the products. -/
def mulCol (c d pc pd : Nat) : Nat × Nat × Nat :=
  let c := u64 (c + pc)
  let d := u64 (d + pd)
  let u := d &&& m26
  let d := d >>> 26
  let c := u64 (c + u * 0x3D10)
  let t := c &&& m26
  let c := c >>> 26
  let c := u64 (c + u * 0x400)
  (t, c, d)

/-- The end of the multiplication, field_10x26_impl.h:696-728 and 970-1002: the limbs 0, 1, 2 and 9. -/
def mulEnd (c d t0 t1 t2 t9 : Nat) : Nat × Nat × Nat × Nat :=
  let c := u64 (c + d * 0x3D10 + t9)
  let r9 := c &&& (m26 >>> 4)
  let c := c >>> 22
  let c := u64 (c + d * (0x400 <<< 4))
  let d := u64 (c * (0x3D10 >>> 4) + t0)
  let r0 := d &&& m26
  let d := d >>> 26
  let d := u64 (d + c * (0x400 >>> 4) + t1)
  let r1 := d &&& m26
  let d := d >>> 26
  let d := u64 (d + t2)
  (r0, r1, u32 d, r9)

/-- The columns and the end of the multiplication, field_10x26_impl.h:440-728 and 760-1002, for the sums
of products `q 0`, ..., `q 18`. -/
def mulCols (q : Nat → Nat) : Fe10 :=
  let d := u64 (q 9)
  let t9 := d &&& m26
  let d := d >>> 26
  let (t0, c, d) := mulCol 0 d (q 0) (q 10)
  let (t1, c, d) := mulCol c d (q 1) (q 11)
  let (t2, c, d) := mulCol c d (q 2) (q 12)
  let (r3, c, d) := mulCol c d (q 3) (q 13)
  let (r4, c, d) := mulCol c d (q 4) (q 14)
  let (r5, c, d) := mulCol c d (q 5) (q 15)
  let (r6, c, d) := mulCol c d (q 6) (q 16)
  let (r7, c, d) := mulCol c d (q 7) (q 17)
  let (r8, c, d) := mulCol c d (q 8) (q 18)
  let (r0, r1, r2, r9) := mulEnd c d t0 t1 t2 t9
  ⟨r0, r1, r2, r3, r4, r5, r6, r7, r8, r9⟩

/-- The sums of products of `secp256k1_fe_mul_inner`, field_10x26_impl.h:430-439, 446, 449-457, ... -/
def mulProds (a b : Fe10) : Nat → Nat
  | 0 => a.n0 * b.n0
  | 1 => a.n0 * b.n1 + a.n1 * b.n0
  | 2 => a.n0 * b.n2 + a.n1 * b.n1 + a.n2 * b.n0
  | 3 => a.n0 * b.n3 + a.n1 * b.n2 + a.n2 * b.n1 + a.n3 * b.n0
  | 4 => a.n0 * b.n4 + a.n1 * b.n3 + a.n2 * b.n2 + a.n3 * b.n1 + a.n4 * b.n0
  | 5 => a.n0 * b.n5 + a.n1 * b.n4 + a.n2 * b.n3 + a.n3 * b.n2 + a.n4 * b.n1 + a.n5 * b.n0
  | 6 => a.n0 * b.n6 + a.n1 * b.n5 + a.n2 * b.n4 + a.n3 * b.n3 + a.n4 * b.n2 + a.n5 * b.n1 + a.n6 * b.n0
  | 7 => a.n0 * b.n7 + a.n1 * b.n6 + a.n2 * b.n5 + a.n3 * b.n4 + a.n4 * b.n3 + a.n5 * b.n2 + a.n6 * b.n1 + a.n7 * b.n0
  | 8 => a.n0 * b.n8 + a.n1 * b.n7 + a.n2 * b.n6 + a.n3 * b.n5 + a.n4 * b.n4 + a.n5 * b.n3 + a.n6 * b.n2 + a.n7 * b.n1 + a.n8 * b.n0
  | 9 => a.n0 * b.n9 + a.n1 * b.n8 + a.n2 * b.n7 + a.n3 * b.n6 + a.n4 * b.n5 + a.n5 * b.n4 + a.n6 * b.n3 + a.n7 * b.n2 + a.n8 * b.n1 + a.n9 * b.n0
  | 10 => a.n1 * b.n9 + a.n2 * b.n8 + a.n3 * b.n7 + a.n4 * b.n6 + a.n5 * b.n5 + a.n6 * b.n4 + a.n7 * b.n3 + a.n8 * b.n2 + a.n9 * b.n1
  | 11 => a.n2 * b.n9 + a.n3 * b.n8 + a.n4 * b.n7 + a.n5 * b.n6 + a.n6 * b.n5 + a.n7 * b.n4 + a.n8 * b.n3 + a.n9 * b.n2
  | 12 => a.n3 * b.n9 + a.n4 * b.n8 + a.n5 * b.n7 + a.n6 * b.n6 + a.n7 * b.n5 + a.n8 * b.n4 + a.n9 * b.n3
  | 13 => a.n4 * b.n9 + a.n5 * b.n8 + a.n6 * b.n7 + a.n7 * b.n6 + a.n8 * b.n5 + a.n9 * b.n4
  | 14 => a.n5 * b.n9 + a.n6 * b.n8 + a.n7 * b.n7 + a.n8 * b.n6 + a.n9 * b.n5
  | 15 => a.n6 * b.n9 + a.n7 * b.n8 + a.n8 * b.n7 + a.n9 * b.n6
  | 16 => a.n7 * b.n9 + a.n8 * b.n8 + a.n9 * b.n7
  | 17 => a.n8 * b.n9 + a.n9 * b.n8
  | 18 => a.n9 * b.n9
  | _ => 0

/-- `secp256k1_fe_mul_inner`, field_10x26_impl.h:401-729 -/
def mul (a b : Fe10) : Fe10 := mulCols (mulProds a b)

/-- The sums of products of `secp256k1_fe_sqr_inner`, field_10x26_impl.h:755-759, 776, 779-783, ... The
doubling `a[i]*2` is a 32-bit operation. -/
def sqrProds (a : Fe10) : Nat → Nat
  | 0 => a.n0 * a.n0
  | 1 => u32 (a.n0 * 2) * a.n1
  | 2 => u32 (a.n0 * 2) * a.n2 + a.n1 * a.n1
  | 3 => u32 (a.n0 * 2) * a.n3 + u32 (a.n1 * 2) * a.n2
  | 4 => u32 (a.n0 * 2) * a.n4 + u32 (a.n1 * 2) * a.n3 + a.n2 * a.n2
  | 5 => u32 (a.n0 * 2) * a.n5 + u32 (a.n1 * 2) * a.n4 + u32 (a.n2 * 2) * a.n3
  | 6 => u32 (a.n0 * 2) * a.n6 + u32 (a.n1 * 2) * a.n5 + u32 (a.n2 * 2) * a.n4 + a.n3 * a.n3
  | 7 => u32 (a.n0 * 2) * a.n7 + u32 (a.n1 * 2) * a.n6 + u32 (a.n2 * 2) * a.n5 + u32 (a.n3 * 2) * a.n4
  | 8 => u32 (a.n0 * 2) * a.n8 + u32 (a.n1 * 2) * a.n7 + u32 (a.n2 * 2) * a.n6 + u32 (a.n3 * 2) * a.n5 + a.n4 * a.n4
  | 9 => u32 (a.n0 * 2) * a.n9 + u32 (a.n1 * 2) * a.n8 + u32 (a.n2 * 2) * a.n7 + u32 (a.n3 * 2) * a.n6 + u32 (a.n4 * 2) * a.n5
  | 10 => u32 (a.n1 * 2) * a.n9 + u32 (a.n2 * 2) * a.n8 + u32 (a.n3 * 2) * a.n7 + u32 (a.n4 * 2) * a.n6 + a.n5 * a.n5
  | 11 => u32 (a.n2 * 2) * a.n9 + u32 (a.n3 * 2) * a.n8 + u32 (a.n4 * 2) * a.n7 + u32 (a.n5 * 2) * a.n6
  | 12 => u32 (a.n3 * 2) * a.n9 + u32 (a.n4 * 2) * a.n8 + u32 (a.n5 * 2) * a.n7 + a.n6 * a.n6
  | 13 => u32 (a.n4 * 2) * a.n9 + u32 (a.n5 * 2) * a.n8 + u32 (a.n6 * 2) * a.n7
  | 14 => u32 (a.n5 * 2) * a.n9 + u32 (a.n6 * 2) * a.n8 + a.n7 * a.n7
  | 15 => u32 (a.n6 * 2) * a.n9 + u32 (a.n7 * 2) * a.n8
  | 16 => u32 (a.n7 * 2) * a.n9 + a.n8 * a.n8
  | 17 => u32 (a.n8 * 2) * a.n9
  | 18 => a.n9 * a.n9
  | _ => 0

/-- `secp256k1_fe_sqr_inner`, field_10x26_impl.h:731-1003 -/
def sqr (a : Fe10) : Fe10 := mulCols (sqrProds a)

/-- One limb of the conditional moves, field_10x26_impl.h:1018-1020: `mask0 = flag + ~0` -/
def cmovLimb (r a : Nat) (flag : Nat) : Nat :=
  let mask0 := u32 (flag + (2 ^ 32 - 1))
  let mask1 := (2 ^ 32 - 1) ^^^ mask0
  (r &&& mask0) ||| (a &&& mask1)

/-- `secp256k1_fe_impl_cmov`, field_10x26_impl.h:1014-1030; `flag` is 0 or 1 -/
def cmov (r a : Fe10) (flag : Nat) : Fe10 :=
  ⟨cmovLimb r.n0 a.n0 flag,
    cmovLimb r.n1 a.n1 flag,
    cmovLimb r.n2 a.n2 flag,
    cmovLimb r.n3 a.n3 flag,
    cmovLimb r.n4 a.n4 flag,
    cmovLimb r.n5 a.n5 flag,
    cmovLimb r.n6 a.n6 flag,
    cmovLimb r.n7 a.n7 flag,
    cmovLimb r.n8 a.n8 flag,
    cmovLimb r.n9 a.n9 flag⟩

/-- `secp256k1_fe_impl_half`, field_10x26_impl.h:1032-1095 -/
def half (r : Fe10) : Fe10 :=
  let mask := sub32 0 (r.n0 &&& 1) >>> 6
  let t0 := u32 (r.n0 + (0x3FFFC2F &&& mask))
  let t1 := u32 (r.n1 + (0x3FFFFBF &&& mask))
  let t2 := u32 (r.n2 + mask)
  let t3 := u32 (r.n3 + mask)
  let t4 := u32 (r.n4 + mask)
  let t5 := u32 (r.n5 + mask)
  let t6 := u32 (r.n6 + mask)
  let t7 := u32 (r.n7 + mask)
  let t8 := u32 (r.n8 + mask)
  let t9 := u32 (r.n9 + (mask >>> 4))
  ⟨u32 ((t0 >>> 1) + ((t1 &&& 1) <<< 25)),
    u32 ((t1 >>> 1) + ((t2 &&& 1) <<< 25)),
    u32 ((t2 >>> 1) + ((t3 &&& 1) <<< 25)),
    u32 ((t3 >>> 1) + ((t4 &&& 1) <<< 25)),
    u32 ((t4 >>> 1) + ((t5 &&& 1) <<< 25)),
    u32 ((t5 >>> 1) + ((t6 &&& 1) <<< 25)),
    u32 ((t6 >>> 1) + ((t7 &&& 1) <<< 25)),
    u32 ((t7 >>> 1) + ((t8 &&& 1) <<< 25)),
    u32 ((t8 >>> 1) + ((t9 &&& 1) <<< 25)), t9 >>> 1⟩

/-- `secp256k1_fe_storage_cmov`, field_10x26_impl.h:1097-1111 -/
def storageCmov (r a : FeStorage8) (flag : Nat) : FeStorage8 :=
  ⟨cmovLimb r.n0 a.n0 flag,
    cmovLimb r.n1 a.n1 flag,
    cmovLimb r.n2 a.n2 flag,
    cmovLimb r.n3 a.n3 flag,
    cmovLimb r.n4 a.n4 flag,
    cmovLimb r.n5 a.n5 flag,
    cmovLimb r.n6 a.n6 flag,
    cmovLimb r.n7 a.n7 flag⟩

/-- `secp256k1_fe_impl_to_storage`, field_10x26_impl.h:1113-1122 -/
def toStorage (a : Fe10) : FeStorage8 :=
  ⟨a.n0 ||| u32 (a.n1 <<< 26), (a.n1 >>> 6) ||| u32 (a.n2 <<< 20), (a.n2 >>> 12) ||| u32 (a.n3 <<< 14),
    (a.n3 >>> 18) ||| u32 (a.n4 <<< 8), (a.n4 >>> 24) ||| u32 (a.n5 <<< 2) ||| u32 (a.n6 <<< 28),
    (a.n6 >>> 4) ||| u32 (a.n7 <<< 22), (a.n7 >>> 10) ||| u32 (a.n8 <<< 16),
    (a.n8 >>> 16) ||| u32 (a.n9 <<< 10)⟩

/-- `secp256k1_fe_impl_from_storage`, field_10x26_impl.h:1124-1135 -/
def fromStorage (a : FeStorage8) : Fe10 :=
  ⟨a.n0 &&& m26, (a.n0 >>> 26) ||| (u32 (a.n1 <<< 6) &&& m26), (a.n1 >>> 20) ||| (u32 (a.n2 <<< 12) &&& m26),
    (a.n2 >>> 14) ||| (u32 (a.n3 <<< 18) &&& m26), (a.n3 >>> 8) ||| (u32 (a.n4 <<< 24) &&& m26),
    (a.n4 >>> 2) &&& m26, (a.n4 >>> 28) ||| (u32 (a.n5 <<< 4) &&& m26),
    (a.n5 >>> 22) ||| (u32 (a.n6 <<< 10) &&& m26), (a.n6 >>> 16) ||| (u32 (a.n7 <<< 16) &&& m26), a.n7 >>> 10⟩

/-- `SECP256K1_FE_CONST_INNER`, field_10x26.h:37-48, where `x` is the number with the words `d7 … d0` -/
def feConst (x : Nat) : Fe10 :=
  let d := fun i => x / 2 ^ (32 * i) % 2 ^ 32
  ⟨d 0 &&& 0x3FFFFFF, (d 0 >>> 26) ||| u32 ((d 1 &&& 0xFFFFF) <<< 6),
   (d 1 >>> 20) ||| u32 ((d 2 &&& 0x3FFF) <<< 12), (d 2 >>> 14) ||| u32 ((d 3 &&& 0xFF) <<< 18),
   (d 3 >>> 8) ||| u32 ((d 4 &&& 0x3) <<< 24), (d 4 >>> 2) &&& 0x3FFFFFF,
   (d 4 >>> 28) ||| u32 ((d 5 &&& 0x3FFFFF) <<< 4), (d 5 >>> 22) ||| u32 ((d 6 &&& 0xFFFF) <<< 10),
   (d 6 >>> 16) ||| u32 ((d 7 &&& 0x3FF) <<< 16), d 7 >>> 10⟩

/-- `SECP256K1_FE_STORAGE_CONST`, field_10x26.h:54 -/
def storageConst (x : Nat) : FeStorage8 :=
  let d := fun i => x / 2 ^ (32 * i) % 2 ^ 32
  ⟨d 0, d 1, d 2, d 3, d 4, d 5, d 6, d 7⟩

end Fe10
end Secp.Model
