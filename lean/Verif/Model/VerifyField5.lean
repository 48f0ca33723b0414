import Verif.Model.Verify

/-!
# The field code on five limbs in a build with `VERIFY`

The functions of `/repo/src/field_5x52_impl.h` and `/repo/src/field_5x52_int128_impl.h` that contain a `VERIFY_CHECK`,
statement by statement with their checks; `none` is an aborted program.  `Verif/Model/Field5x52.lean` is the same code
without them.  Left out: the conditions on pointers (`r != b`, `a != b`, see C78).
-/

namespace Secp.Model
open Verify

/-- `VERIFY_BITS`, field_5x52_int128_impl.h:15 -/
def verifyBits (x n : Nat) : Option Unit := check (decide (x >>> n = 0))

/-- `VERIFY_BITS_128`, field_5x52_int128_impl.h:16, with `secp256k1_u128_check_bits`, int128_native_impl.h:40-43 -/
def verifyBits128 (x n : Nat) : Option Unit := do
  check (decide (n < 128))
  check (decide (x >>> n = 0))

namespace Fe5

/-- `secp256k1_fe_mul_inner`, field_5x52_int128_impl.h:18-152 -/
def mulV (a b : Fe5) : Option Fe5 := do
  verifyBits a.n0 56
  verifyBits a.n1 56
  verifyBits a.n2 56
  verifyBits a.n3 56
  verifyBits a.n4 52
  verifyBits b.n0 56
  verifyBits b.n1 56
  verifyBits b.n2 56
  verifyBits b.n3 56
  verifyBits b.n4 52
  let d := u128Mul a.n0 b.n3
  let d := u128AccumMul d a.n1 b.n2
  let d := u128AccumMul d a.n2 b.n1
  let d := u128AccumMul d a.n3 b.n0
  verifyBits128 d 114
  let c := u128Mul a.n4 b.n4
  verifyBits128 c 112
  let d := u128AccumMul d mulR (u128ToU64 c)
  let c := u128Rshift c 64
  verifyBits128 d 115
  verifyBits128 c 48
  let t3 := u128ToU64 d &&& m52
  let d := u128Rshift d 52
  verifyBits t3 52
  verifyBits128 d 63
  let d := u128AccumMul d a.n0 b.n4
  let d := u128AccumMul d a.n1 b.n3
  let d := u128AccumMul d a.n2 b.n2
  let d := u128AccumMul d a.n3 b.n1
  let d := u128AccumMul d a.n4 b.n0
  verifyBits128 d 115
  let d := u128AccumMul d (u64 (mulR <<< 12)) (u128ToU64 c)
  verifyBits128 d 116
  let t4 := u128ToU64 d &&& m52
  let d := u128Rshift d 52
  verifyBits t4 52
  verifyBits128 d 64
  let tx := t4 >>> 48
  let t4 := t4 &&& (m52 >>> 4)
  verifyBits tx 4
  verifyBits t4 48
  let c := u128Mul a.n0 b.n0
  verifyBits128 c 112
  let d := u128AccumMul d a.n1 b.n4
  let d := u128AccumMul d a.n2 b.n3
  let d := u128AccumMul d a.n3 b.n2
  let d := u128AccumMul d a.n4 b.n1
  verifyBits128 d 114
  let u0 := u128ToU64 d &&& m52
  let d := u128Rshift d 52
  verifyBits u0 52
  verifyBits128 d 62
  let u0 := u64 (u0 <<< 4) ||| tx
  verifyBits u0 56
  let c := u128AccumMul c u0 (mulR >>> 4)
  verifyBits128 c 113
  let r0 := u128ToU64 c &&& m52
  let c := u128Rshift c 52
  verifyBits r0 52
  verifyBits128 c 61
  let c := u128AccumMul c a.n0 b.n1
  let c := u128AccumMul c a.n1 b.n0
  verifyBits128 c 114
  let d := u128AccumMul d a.n2 b.n4
  let d := u128AccumMul d a.n3 b.n3
  let d := u128AccumMul d a.n4 b.n2
  verifyBits128 d 114
  let c := u128AccumMul c (u128ToU64 d &&& m52) mulR
  let d := u128Rshift d 52
  verifyBits128 c 115
  verifyBits128 d 62
  let r1 := u128ToU64 c &&& m52
  let c := u128Rshift c 52
  verifyBits r1 52
  verifyBits128 c 63
  let c := u128AccumMul c a.n0 b.n2
  let c := u128AccumMul c a.n1 b.n1
  let c := u128AccumMul c a.n2 b.n0
  verifyBits128 c 114
  let d := u128AccumMul d a.n3 b.n4
  let d := u128AccumMul d a.n4 b.n3
  verifyBits128 d 114
  let c := u128AccumMul c mulR (u128ToU64 d)
  let d := u128Rshift d 64
  verifyBits128 c 115
  verifyBits128 d 50
  let r2 := u128ToU64 c &&& m52
  let c := u128Rshift c 52
  verifyBits r2 52
  verifyBits128 c 63
  let c := u128AccumMul c (u64 (mulR <<< 12)) (u128ToU64 d)
  let c := u128AccumU64 c t3
  verifyBits128 c 100
  let r3 := u128ToU64 c &&& m52
  let c := u128Rshift c 52
  verifyBits r3 52
  verifyBits128 c 48
  let r4 := u64 (u128ToU64 c + t4)
  verifyBits r4 49
  some ⟨r0, r1, r2, r3, r4⟩

/-- `secp256k1_fe_sqr_inner`, field_5x52_int128_impl.h:154-272 -/
def sqrV (a : Fe5) : Option Fe5 := do
  let a0 := a.n0
  let a4 := a.n4
  verifyBits a.n0 56
  verifyBits a.n1 56
  verifyBits a.n2 56
  verifyBits a.n3 56
  verifyBits a.n4 52
  let d := u128Mul (u64 (a0 * 2)) a.n3
  let d := u128AccumMul d (u64 (a.n1 * 2)) a.n2
  verifyBits128 d 114
  let c := u128Mul a4 a4
  verifyBits128 c 112
  let d := u128AccumMul d mulR (u128ToU64 c)
  let c := u128Rshift c 64
  verifyBits128 d 115
  verifyBits128 c 48
  let t3 := u128ToU64 d &&& m52
  let d := u128Rshift d 52
  verifyBits t3 52
  verifyBits128 d 63
  let a4 := u64 (a4 * 2)
  let d := u128AccumMul d a0 a4
  let d := u128AccumMul d (u64 (a.n1 * 2)) a.n3
  let d := u128AccumMul d a.n2 a.n2
  verifyBits128 d 115
  let d := u128AccumMul d (u64 (mulR <<< 12)) (u128ToU64 c)
  verifyBits128 d 116
  let t4 := u128ToU64 d &&& m52
  let d := u128Rshift d 52
  verifyBits t4 52
  verifyBits128 d 64
  let tx := t4 >>> 48
  let t4 := t4 &&& (m52 >>> 4)
  verifyBits tx 4
  verifyBits t4 48
  let c := u128Mul a0 a0
  verifyBits128 c 112
  let d := u128AccumMul d a.n1 a4
  let d := u128AccumMul d (u64 (a.n2 * 2)) a.n3
  verifyBits128 d 114
  let u0 := u128ToU64 d &&& m52
  let d := u128Rshift d 52
  verifyBits u0 52
  verifyBits128 d 62
  let u0 := u64 (u0 <<< 4) ||| tx
  verifyBits u0 56
  let c := u128AccumMul c u0 (mulR >>> 4)
  verifyBits128 c 113
  let r0 := u128ToU64 c &&& m52
  let c := u128Rshift c 52
  verifyBits r0 52
  verifyBits128 c 61
  let a0 := u64 (a0 * 2)
  let c := u128AccumMul c a0 a.n1
  verifyBits128 c 114
  let d := u128AccumMul d a.n2 a4
  let d := u128AccumMul d a.n3 a.n3
  verifyBits128 d 114
  let c := u128AccumMul c (u128ToU64 d &&& m52) mulR
  let d := u128Rshift d 52
  verifyBits128 c 115
  verifyBits128 d 62
  let r1 := u128ToU64 c &&& m52
  let c := u128Rshift c 52
  verifyBits r1 52
  verifyBits128 c 63
  let c := u128AccumMul c a0 a.n2
  let c := u128AccumMul c a.n1 a.n1
  verifyBits128 c 114
  let d := u128AccumMul d a.n3 a4
  verifyBits128 d 114
  let c := u128AccumMul c mulR (u128ToU64 d)
  let d := u128Rshift d 64
  verifyBits128 c 115
  verifyBits128 d 50
  let r2 := u128ToU64 c &&& m52
  let c := u128Rshift c 52
  verifyBits r2 52
  verifyBits128 c 63
  let c := u128AccumMul c (u64 (mulR <<< 12)) (u128ToU64 d)
  let c := u128AccumU64 c t3
  verifyBits128 c 100
  let r3 := u128ToU64 c &&& m52
  let c := u128Rshift c 52
  verifyBits r3 52
  verifyBits128 c 48
  let r4 := u64 (u128ToU64 c + t4)
  verifyBits r4 49
  some ⟨r0, r1, r2, r3, r4⟩

/-- The first pass of the normalizations with the check that ends it, field_5x52_impl.h:44-58, 81-94, 100-114 and
138-155 -/
def pass1V (r : Fe5) : Option Fe5 := do
  let t := r.pass1
  check (decide (t.n4 >>> 49 = 0))
  some t

/-- The final reduction with its check, field_5x52_impl.h:64-77 and 121-134 -/
def pass2V (t : Fe5) (y x : Nat) : Option Fe5 := do
  let t0 := u64 (t.n0 + u64 (y * feC))
  let t1 := u64 (t.n1 + (t0 >>> 52))
  let t0 := t0 &&& m52
  let t2 := u64 (t.n2 + (t1 >>> 52))
  let t1 := t1 &&& m52
  let t3 := u64 (t.n3 + (t2 >>> 52))
  let t2 := t2 &&& m52
  let t4 := u64 (t.n4 + (t3 >>> 52))
  let t3 := t3 &&& m52
  check (decide (t4 >>> 48 = x))
  let t4 := t4 &&& m48
  some ⟨t0, t1, t2, t3, t4⟩

/-- `secp256k1_fe_impl_normalize`, field_5x52_impl.h:43-78 -/
def normalizeV (r : Fe5) : Option Fe5 := do
  let t ← r.pass1V
  t.pass2V t.needsReduce t.needsReduce

/-- `secp256k1_fe_impl_normalize_weak`, field_5x52_impl.h:80-97 -/
def normalizeWeakV (r : Fe5) : Option Fe5 := r.pass1V

/-- `secp256k1_fe_impl_normalize_var`, field_5x52_impl.h:99-135 -/
def normalizeVarV (r : Fe5) : Option Fe5 := do
  let t ← r.pass1V
  if t.needsReduce ≠ 0 then t.pass2V 1 t.needsReduce else some t

/-- `secp256k1_fe_impl_normalizes_to_zero`, field_5x52_impl.h:137-158 -/
def normalizesToZeroV (r : Fe5) : Option Bool := do
  let t := r.pass1
  let z0 := t.n0 ||| t.n1 ||| t.n2 ||| t.n3 ||| t.n4
  let z1 := (t.n0 ^^^ 0x1000003D0) &&& t.n1 &&& t.n2 &&& t.n3 &&& (t.n4 ^^^ 0xF000000000000)
  check (decide (t.n4 >>> 49 = 0))
  some (decide (z0 = 0) || decide (z1 = m52))

/-- `secp256k1_fe_impl_normalizes_to_zero_var`, field_5x52_impl.h:160-199 -/
def normalizesToZeroVarV (r : Fe5) : Option Bool :=
  let x := r.n4 >>> 48
  let t0 := u64 (r.n0 + u64 (x * feC))
  let z0 := t0 &&& m52
  let z1 := z0 ^^^ 0x1000003D0
  if z0 ≠ 0 ∧ z1 ≠ m52 then some false
  else do
    let t4 := r.n4 &&& m48
    let t1 := u64 (r.n1 + (t0 >>> 52))
    let t2 := u64 (r.n2 + (t1 >>> 52))
    let t1 := t1 &&& m52
    let z0 := z0 ||| t1
    let z1 := z1 &&& t1
    let t3 := u64 (r.n3 + (t2 >>> 52))
    let t2 := t2 &&& m52
    let z0 := z0 ||| t2
    let z1 := z1 &&& t2
    let t4 := u64 (t4 + (t3 >>> 52))
    let t3 := t3 &&& m52
    let z0 := z0 ||| t3
    let z1 := z1 &&& t3
    let z0 := z0 ||| t4
    let z1 := z1 &&& (t4 ^^^ 0xF000000000000)
    check (decide (t4 >>> 49 = 0))
    some (decide (z0 = 0) || decide (z1 = m52))

/-- `secp256k1_fe_impl_negate_unchecked`, field_5x52_impl.h:306-319 -/
def negateV (a : Fe5) (m : Nat) : Option Fe5 := do
  check (decide (u64 (feP0 * 2 * (m + 1)) ≥ u64 (m52 * 2 * m)))
  check (decide (u64 (m52 * 2 * (m + 1)) ≥ u64 (m52 * 2 * m)))
  check (decide (u64 (m48 * 2 * (m + 1)) ≥ u64 (m48 * 2 * m)))
  some ⟨sub64 (u64 (feP0 * 2 * (m + 1))) a.n0, sub64 (u64 (m52 * 2 * (m + 1))) a.n1,
    sub64 (u64 (m52 * 2 * (m + 1))) a.n2, sub64 (u64 (m52 * 2 * (m + 1))) a.n3,
    sub64 (u64 (m48 * 2 * (m + 1))) a.n4⟩

/-- `secp256k1_fe_impl_half`, field_5x52_impl.h:362-414 -/
def halfV (r : Fe5) : Option Fe5 := do
  let mask := sub64 0 (r.n0 &&& 1) >>> 12
  let t0 := u64 (r.n0 + (feP0 &&& mask))
  let t1 := u64 (r.n1 + mask)
  let t2 := u64 (r.n2 + mask)
  let t3 := u64 (r.n3 + mask)
  let t4 := u64 (r.n4 + (mask >>> 4))
  check (decide (t0 &&& 1 = 0))
  some ⟨u64 ((t0 >>> 1) + ((t1 &&& 1) <<< 51)), u64 ((t1 >>> 1) + ((t2 &&& 1) <<< 51)),
    u64 ((t2 >>> 1) + ((t3 &&& 1) <<< 51)), u64 ((t3 >>> 1) + ((t4 &&& 1) <<< 51)), t4 >>> 1⟩

end Fe5
end Secp.Model
