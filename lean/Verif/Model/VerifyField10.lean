import Verif.Model.Verify

/-!
# The field code on ten limbs in a build with `VERIFY`

The functions of `/repo/src/field_10x26_impl.h` that contain a `VERIFY_CHECK`, other than `secp256k1_fe_impl_verify` and
`secp256k1_fe_from_signed30`, with their checks; `none` is an aborted program.  `Verif/Model/Field10x26.lean` is the same code without them.  Left out: the conditions on
pointers in the callers (see C78).
-/

namespace Secp.Model.Fe10
open Verify

/-- The condition of `VERIFY_BITS(x, n)`, field_10x26_impl.h:399 -/
def bits (n x : Nat) : Bool := decide (x >>> n = 0)

/-- The condition of `VERIFY_CHECK(x <= b)`, field_10x26_impl.h:635 and others -/
def atMost (b x : Nat) : Bool := decide (x ≤ b)

/-- One column of the multiplication (see `mulCol`) with its checks: `k1` after the products of the lower half are added,
`k2` after those of the upper half are, `k3` for `d` and `k4` for `c` after the reduction, `k5` for `c` in the end.
`fun _ => true` stands where the program has none. -/
def mulColV (k1 k2 k3 k4 k5 : Nat → Bool) (c d pc pd : Nat) : Option (Nat × Nat × Nat) := do
  let c := u64 (c + pc)
  check (k1 c)
  let d := u64 (d + pd)
  check (k2 d)
  let u := d &&& m26
  let d := d >>> 26
  let c := u64 (c + u * 0x3D10)
  check (bits 26 u)
  check (k3 d)
  check (k4 c)
  let t := c &&& m26
  let c := c >>> 26
  let c := u64 (c + u * 0x400)
  check (bits 26 t)
  check (k5 c)
  some (t, c, d)

/-- The end of the multiplication, field_10x26_impl.h:696-728 and 970-1002: the limbs 0, 1, 2 and 9. -/
def mulEndV (c d t0 t1 t2 t9 : Nat) : Option (Nat × Nat × Nat × Nat) := do
  let c := u64 (c + d * 0x3D10 + t9)
  check (bits 45 c)
  let r9 := c &&& (m26 >>> 4)
  let c := c >>> 22
  let c := u64 (c + d * (0x400 <<< 4))
  check (bits 22 r9)
  check (bits 46 c)
  let d := u64 (c * (0x3D10 >>> 4) + t0)
  check (bits 56 d)
  let r0 := d &&& m26
  let d := d >>> 26
  check (bits 26 r0)
  check (bits 30 d)
  let d := u64 (d + c * (0x400 >>> 4) + t1)
  check (bits 53 d)
  check (atMost 0x10000003FFFFBF d)
  let r1 := d &&& m26
  let d := d >>> 26
  check (bits 26 r1)
  check (bits 27 d)
  check (atMost 0x4000000 d)
  let d := u64 (d + t2)
  check (bits 27 d)
  check (bits 27 (u32 d))
  some (r0, r1, u32 d, r9)

/-- The columns and the end of the multiplication, field_10x26_impl.h:440-728 and 760-1002.  The checks of the two
functions are the same.  (Those of the limbs 3 to 7, lines 674-687 and 948-961, stand before the end of column 8 in the
program.) -/
def mulColsV (q : Nat → Nat) : Option Fe10 := do
  let d := u64 (q 9)
  let t9 := d &&& m26
  let d := d >>> 26
  check (bits 26 t9)
  check (bits 38 d)
  let x0 ← mulColV (bits 60) (bits 63) (bits 37) (bits 61) (bits 37) 0 d (q 0) (q 10)
  let x1 ← mulColV (bits 62) (bits 63) (bits 37) (bits 63) (bits 38) x0.2.1 x0.2.2 (q 1) (q 11)
  let x2 ← mulColV (bits 62) (bits 63) (bits 37) (bits 63) (bits 38) x1.2.1 x1.2.2 (q 2) (q 12)
  let x3 ← mulColV (bits 63) (bits 63) (bits 37) (fun _ => true) (bits 39) x2.2.1 x2.2.2 (q 3) (q 13)
  let x4 ← mulColV (bits 63) (bits 62) (bits 36) (fun _ => true) (bits 39) x3.2.1 x3.2.2 (q 4) (q 14)
  let x5 ← mulColV (bits 63) (bits 62) (bits 36) (fun _ => true) (bits 39) x4.2.1 x4.2.2 (q 5) (q 15)
  let x6 ← mulColV (bits 63) (bits 61) (bits 35) (fun _ => true) (bits 39) x5.2.1 x5.2.2 (q 6) (q 16)
  let x7 ← mulColV (atMost 0x8000007C00000007) (bits 58) (bits 32) (atMost 0x800001703FFFC2F7) (bits 38)
    x6.2.1 x6.2.2 (q 7) (q 17)
  let x8 ← mulColV (atMost 0x9000007B80000008) (bits 57) (bits 31) (atMost 0x9000016FBFFFC2F8) (bits 39)
    x7.2.1 x7.2.2 (q 8) (q 18)
  check (bits 26 x3.1)
  check (bits 26 x4.1)
  check (bits 26 x5.1)
  check (bits 26 x6.1)
  check (bits 26 x7.1)
  let e ← mulEndV x8.2.1 x8.2.2 x0.1 x1.1 x2.1 t9
  some ⟨e.1, e.2.1, e.2.2.1, x3.1, x4.1, x5.1, x6.1, x7.1, x8.1, e.2.2.2⟩

/-- The checks of an operand, field_10x26_impl.h:407-416, 417-426 and 737-746 -/
def operandV (a : Fe10) : Option Unit := do
  check (bits 30 a.n0)
  check (bits 30 a.n1)
  check (bits 30 a.n2)
  check (bits 30 a.n3)
  check (bits 30 a.n4)
  check (bits 30 a.n5)
  check (bits 30 a.n6)
  check (bits 30 a.n7)
  check (bits 30 a.n8)
  check (bits 26 a.n9)

/-- `secp256k1_fe_mul_inner`, field_10x26_impl.h:401-729 -/
def mulV (a b : Fe10) : Option Fe10 := do
  operandV a
  operandV b
  mulColsV (mulProds a b)

/-- `secp256k1_fe_sqr_inner`, field_10x26_impl.h:731-1003 -/
def sqrV (a : Fe10) : Option Fe10 := do
  operandV a
  mulColsV (sqrProds a)

/-- The first pass of the normalizations with the check that ends it, field_10x26_impl.h:54-74, 103-122 and 129-149 -/
def pass1V (r : Fe10) : Option Fe10 := do
  let t := r.pass1
  check (decide (t.n9 >>> 23 = 0))
  some t

/-- The final reduction with its check, field_10x26_impl.h:81-96 and 156-171 -/
def pass2V (t : Fe10) (y x : Nat) : Option Fe10 := do
  let r := t.carry y t.n9
  check (decide (r.n9 >>> 22 = x))
  some { r with n9 := r.n9 &&& m22 }

/-- `secp256k1_fe_impl_normalize`, field_10x26_impl.h:53-100 -/
def normalizeV (r : Fe10) : Option Fe10 := do
  let t ← r.pass1V
  t.pass2V t.needsReduce t.needsReduce

/-- `secp256k1_fe_impl_normalize_weak`, field_10x26_impl.h:102-126 -/
def normalizeWeakV (r : Fe10) : Option Fe10 := r.pass1V

/-- `secp256k1_fe_impl_normalize_var`, field_10x26_impl.h:128-176 -/
def normalizeVarV (r : Fe10) : Option Fe10 := do
  let t ← r.pass1V
  if t.needsReduce ≠ 0 then t.pass2V 1 t.needsReduce else some t

/-- `secp256k1_fe_impl_normalizes_to_zero`, field_10x26_impl.h:178-205 -/
def normalizesToZeroV (r : Fe10) : Option Bool := do
  let t := r.pass1
  let z0 := t.n0 ||| t.n1 ||| t.n2 ||| t.n3 ||| t.n4 ||| t.n5 ||| t.n6 ||| t.n7 ||| t.n8 ||| t.n9
  let z1 := (t.n0 ^^^ 0x3D0) &&& (t.n1 ^^^ 0x40) &&& t.n2 &&& t.n3 &&& t.n4 &&& t.n5 &&& t.n6 &&& t.n7 &&& t.n8
    &&& (t.n9 ^^^ 0x3C00000)
  check (decide (t.n9 >>> 23 = 0))
  some (decide (z0 = 0) || decide (z1 = m26))

/-- `secp256k1_fe_impl_normalizes_to_zero_var`, field_10x26_impl.h:207-257 -/
def normalizesToZeroVarV (r : Fe10) : Option Bool :=
  let x := r.n9 >>> 22
  let t0 := u32 (r.n0 + x * 0x3D1)
  let z0 := t0 &&& m26
  let z1 := z0 ^^^ 0x3D0
  if z0 ≠ 0 ∧ z1 ≠ m26 then some false
  else do
    let t9 := r.n9 &&& m22
    let t1 := u32 (r.n1 + x <<< 6)
    let t1 := u32 (t1 + (t0 >>> 26))
    let t2 := u32 (r.n2 + (t1 >>> 26))
    let t1 := t1 &&& m26
    let z0 := z0 ||| t1
    let z1 := z1 &&& (t1 ^^^ 0x40)
    let t3 := u32 (r.n3 + (t2 >>> 26))
    let t2 := t2 &&& m26
    let z0 := z0 ||| t2
    let z1 := z1 &&& t2
    let t4 := u32 (r.n4 + (t3 >>> 26))
    let t3 := t3 &&& m26
    let z0 := z0 ||| t3
    let z1 := z1 &&& t3
    let t5 := u32 (r.n5 + (t4 >>> 26))
    let t4 := t4 &&& m26
    let z0 := z0 ||| t4
    let z1 := z1 &&& t4
    let t6 := u32 (r.n6 + (t5 >>> 26))
    let t5 := t5 &&& m26
    let z0 := z0 ||| t5
    let z1 := z1 &&& t5
    let t7 := u32 (r.n7 + (t6 >>> 26))
    let t6 := t6 &&& m26
    let z0 := z0 ||| t6
    let z1 := z1 &&& t6
    let t8 := u32 (r.n8 + (t7 >>> 26))
    let t7 := t7 &&& m26
    let z0 := z0 ||| t7
    let z1 := z1 &&& t7
    let t9 := u32 (t9 + (t8 >>> 26))
    let t8 := t8 &&& m26
    let z0 := z0 ||| t8
    let z1 := z1 &&& t8
    let z0 := z0 ||| t9
    let z1 := z1 &&& (t9 ^^^ 0x3C00000)
    check (decide (t9 >>> 23 = 0))
    some (decide (z0 = 0) || decide (z1 = m26))

/-- `secp256k1_fe_impl_negate_unchecked`, field_10x26_impl.h:340-359.  (Simplification: `unsigned long`
has 32 bits; nothing exceeds them for `m` at most 31.) -/
def negateV (a : Fe10) (m : Nat) : Option Fe10 := do
  check (decide (u32 (0x3FFFC2F * 2 * (m + 1)) ≥ u32 (0x3FFFFFF * 2 * m)))
  check (decide (u32 (0x3FFFFBF * 2 * (m + 1)) ≥ u32 (0x3FFFFFF * 2 * m)))
  check (decide (u32 (0x3FFFFFF * 2 * (m + 1)) ≥ u32 (0x3FFFFFF * 2 * m)))
  check (decide (u32 (0x03FFFFF * 2 * (m + 1)) ≥ u32 (0x03FFFFF * 2 * m)))
  some ⟨sub32 (u32 (0x3FFFC2F * 2 * (m + 1))) a.n0,
    sub32 (u32 (0x3FFFFBF * 2 * (m + 1))) a.n1,
    sub32 (u32 (0x3FFFFFF * 2 * (m + 1))) a.n2,
    sub32 (u32 (0x3FFFFFF * 2 * (m + 1))) a.n3,
    sub32 (u32 (0x3FFFFFF * 2 * (m + 1))) a.n4,
    sub32 (u32 (0x3FFFFFF * 2 * (m + 1))) a.n5,
    sub32 (u32 (0x3FFFFFF * 2 * (m + 1))) a.n6,
    sub32 (u32 (0x3FFFFFF * 2 * (m + 1))) a.n7,
    sub32 (u32 (0x3FFFFFF * 2 * (m + 1))) a.n8,
    sub32 (u32 (0x03FFFFF * 2 * (m + 1))) a.n9⟩

/-- `secp256k1_fe_impl_half`, field_10x26_impl.h:1032-1095 -/
def halfV (r : Fe10) : Option Fe10 := do
  let mask := sub32 0 (r.n0 &&& 1) >>> 6
  let t0 := u32 (r.n0 + (0x3FFFC2F &&& mask))
  let t1 := u32 (r.n1 + (0x3FFFFBF &&& mask))
  let t2 := u32 (r.n2 + mask)
  let t3 := u32 (r.n3 + mask)
  let t4 := u32 (r.n4 + mask)
  let t5 := u32 (r.n5 + mask)
  let t6 := u32 (r.n6 + mask)
  let t7 := u32 (r.n7 + mask)
  let t8 := u32 (r.n8 + mask)
  let t9 := u32 (r.n9 + (mask >>> 4))
  check (decide (t0 &&& 1 = 0))
  some ⟨u32 ((t0 >>> 1) + ((t1 &&& 1) <<< 25)),
    u32 ((t1 >>> 1) + ((t2 &&& 1) <<< 25)),
    u32 ((t2 >>> 1) + ((t3 &&& 1) <<< 25)),
    u32 ((t3 >>> 1) + ((t4 &&& 1) <<< 25)),
    u32 ((t4 >>> 1) + ((t5 &&& 1) <<< 25)),
    u32 ((t5 >>> 1) + ((t6 &&& 1) <<< 25)),
    u32 ((t6 >>> 1) + ((t7 &&& 1) <<< 25)),
    u32 ((t7 >>> 1) + ((t8 &&& 1) <<< 25)),
    u32 ((t8 >>> 1) + ((t9 &&& 1) <<< 25)), t9 >>> 1⟩

end Secp.Model.Fe10
