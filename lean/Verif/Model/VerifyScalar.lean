import Verif.Model.Verify
import Verif.Model.VerifyEcmult
import Verif.Model.Modinv64

/-!
# The scalar code of a build with `VERIFY`, on 64-bit limbs

`/repo/src/scalar_4x64_impl.h` (the C branches) and the part of `/repo/src/scalar_impl.h` that works on limbs,
with their checks; `none` is an aborted program.  The functions without checks are those of
`Model/Scalar4x64.lean` and `Model/Modinv64.lean`.

Left out: the checks that two pointers differ (`r1 != k`), `SECP256K1_CHECKMEM_CHECK_VERIFY`, and the checks
inside of `modinv64_impl.h`.
-/

namespace Secp.Model.Verify

/-- `secp256k1_scalar_verify`, scalar_impl.h:42-46 -/
def scVerify (a : Sc4) : Option Unit := check (!a.checkOverflow)

/-! ## the accumulator -/

/-- `muladd`, scalar_4x64_impl.h:283-297.  `w` is the width of `c2`. -/
def muladdV (w : ℕ) (c : Acc) (a b : ℕ) : Option Acc := do
  let t := u128Mul a b
  let th := u128HiU64 t
  let tl := u128ToU64 t
  let c0 := u64 (c.c0 + tl)
  let th := u64 (th + bit (decide (c0 < tl)))
  let c1 := u64 (c.c1 + th)
  let c2 := (c.c2 + bit (decide (c1 < th))) % 2 ^ w
  check (decide (c1 ≥ th) || decide (c2 ≠ 0))
  some ⟨c0, c1, c2⟩

/-- `muladd_fast`, scalar_4x64_impl.h:300-312 -/
def muladdFastV (c : Acc) (a b : ℕ) : Option Acc := do
  let t := u128Mul a b
  let th := u128HiU64 t
  let tl := u128ToU64 t
  let c0 := u64 (c.c0 + tl)
  let th := u64 (th + bit (decide (c0 < tl)))
  let c1 := u64 (c.c1 + th)
  check (decide (c1 ≥ th))
  some ⟨c0, c1, c.c2⟩

/-- `sumadd_fast`, scalar_4x64_impl.h:324-329 -/
def sumaddFastV (c : Acc) (a : ℕ) : Option Acc := do
  let c0 := u64 (c.c0 + a)
  let c1 := u64 (c.c1 + bit (decide (c0 < a)))
  check (decide (c1 ≠ 0) || decide (c0 ≥ a))
  check (decide (c.c2 = 0))
  some ⟨c0, c1, c.c2⟩

/-- `extract_fast`, scalar_4x64_impl.h:340-345 -/
def extractFastV (c : Acc) : Option Acc := do
  check (decide (c.c2 = 0))
  some ⟨c.c1, 0, c.c2⟩

/-! ## multiplication -/

/-- `secp256k1_scalar_reduce_512`, scalar_4x64_impl.h:610-635 -/
def reduce512aV (l : U512) : Option Red1 := do
  let n0 := l.l4
  let n1 := l.l5
  let n2 := l.l6
  let n3 := l.l7
  let c : Acc := ⟨l.l0, 0, 0⟩
  let c ← muladdFastV c n0 scNC0
  let m0 := c.c0
  let c ← extractFastV c
  let c ← sumaddFastV c l.l1
  let c ← muladdV 64 c n1 scNC0
  let c ← muladdV 64 c n0 scNC1
  let m1 := c.c0
  let c := c.extract
  let c := c.sumadd 64 l.l2
  let c ← muladdV 64 c n2 scNC0
  let c ← muladdV 64 c n1 scNC1
  let c := c.sumadd 64 n0
  let m2 := c.c0
  let c := c.extract
  let c := c.sumadd 64 l.l3
  let c ← muladdV 64 c n3 scNC0
  let c ← muladdV 64 c n2 scNC1
  let c := c.sumadd 64 n1
  let m3 := c.c0
  let c := c.extract
  let c ← muladdV 64 c n3 scNC1
  let c := c.sumadd 64 n2
  let m4 := c.c0
  let c := c.extract
  let c ← sumaddFastV c n3
  let m5 := c.c0
  let c ← extractFastV c
  check (decide (c.c0 ≤ 1))
  let m6 := c.c0 % 2 ^ 32
  some ⟨m0, m1, m2, m3, m4, m5, m6⟩

/-- `secp256k1_scalar_reduce_512`, scalar_4x64_impl.h:637-656 -/
def reduce512bV (m : Red1) : Option Red2 := do
  let c : Acc := ⟨m.m0, 0, 0⟩
  let c ← muladdFastV c m.m4 scNC0
  let p0 := c.c0
  let c ← extractFastV c
  let c ← sumaddFastV c m.m1
  let c ← muladdV 64 c m.m5 scNC0
  let c ← muladdV 64 c m.m4 scNC1
  let p1 := c.c0
  let c := c.extract
  let c := c.sumadd 64 m.m2
  let c ← muladdV 64 c m.m6 scNC0
  let c ← muladdV 64 c m.m5 scNC1
  let c := c.sumadd 64 m.m4
  let p2 := c.c0
  let c := c.extract
  let c ← sumaddFastV c m.m3
  let c ← muladdFastV c m.m6 scNC1
  let c ← sumaddFastV c m.m5
  let p3 := c.c0
  let c ← extractFastV c
  let p4 := u64 (c.c0 + m.m6) % 2 ^ 32
  check (decide (p4 ≤ 2))
  some ⟨p0, p1, p2, p3, p4⟩

/-- `secp256k1_scalar_reduce`, scalar_4x64_impl.h:74-92 -/
def scReduceV (r : Sc4) (overflow : ℕ) : Option Sc4 := do
  check (decide (overflow ≤ 1))
  let r := r.reduce overflow
  scVerify r
  some r

/-- `secp256k1_scalar_reduce_512`, scalar_4x64_impl.h:347-676 -/
def reduce512V (l : U512) : Option Sc4 := do
  let m ← reduce512aV l
  let p ← reduce512bV m
  let r := Sc4.reduce512c p
  scReduceV r.1 (u64 (r.2 + bit r.1.checkOverflow) % 2 ^ 32)

/-- `secp256k1_scalar_mul_512`, scalar_4x64_impl.h:678-846 -/
def mul512V (a b : Sc4) : Option U512 := do
  let c : Acc := ⟨0, 0, 0⟩
  let c ← muladdFastV c a.d0 b.d0
  let l0 := c.c0
  let c ← extractFastV c
  let c ← muladdV 32 c a.d0 b.d1
  let c ← muladdV 32 c a.d1 b.d0
  let l1 := c.c0
  let c := c.extract
  let c ← muladdV 32 c a.d0 b.d2
  let c ← muladdV 32 c a.d1 b.d1
  let c ← muladdV 32 c a.d2 b.d0
  let l2 := c.c0
  let c := c.extract
  let c ← muladdV 32 c a.d0 b.d3
  let c ← muladdV 32 c a.d1 b.d2
  let c ← muladdV 32 c a.d2 b.d1
  let c ← muladdV 32 c a.d3 b.d0
  let l3 := c.c0
  let c := c.extract
  let c ← muladdV 32 c a.d1 b.d3
  let c ← muladdV 32 c a.d2 b.d2
  let c ← muladdV 32 c a.d3 b.d1
  let l4 := c.c0
  let c := c.extract
  let c ← muladdV 32 c a.d2 b.d3
  let c ← muladdV 32 c a.d3 b.d2
  let l5 := c.c0
  let c := c.extract
  let c ← muladdFastV c a.d3 b.d3
  let l6 := c.c0
  let c ← extractFastV c
  check (decide (c.c1 = 0))
  let l7 := c.c0
  some ⟨l0, l1, l2, l3, l4, l5, l6, l7⟩

/-- `secp256k1_scalar_mul`, scalar_4x64_impl.h:855-864 -/
def scMulV (a b : Sc4) : Option Sc4 := do
  scVerify a
  scVerify b
  let l ← mul512V a b
  let r ← reduce512V l
  scVerify r
  some r

/-! ## the other functions -/

/-- `secp256k1_scalar_set_int`, scalar_4x64_impl.h:32-39 -/
def scSetIntV (v : ℕ) : Option Sc4 := do
  let r := Sc4.setInt v
  scVerify r
  some r

/-- `secp256k1_scalar_get_bits_limb32`, scalar_4x64_impl.h:41-47 -/
def scGetBitsLimb32V (a : Sc4) (offset count : ℕ) : Option ℕ := do
  scVerify a
  check (decide (count > 0) && decide (count ≤ 32))
  check (decide ((offset + count - 1) >>> 6 = offset >>> 6))
  some (a.getBitsLimb32 offset count)

/-- `secp256k1_scalar_get_bits_var`, scalar_4x64_impl.h:49-60 -/
def scGetBitsVarV (a : Sc4) (offset count : ℕ) : Option ℕ := do
  scVerify a
  check (decide (count > 0) && decide (count ≤ 32))
  check (decide (offset + count ≤ 256))
  if (offset + count - 1) >>> 6 = offset >>> 6 then scGetBitsLimb32V a offset count
  else do
    check (decide ((offset >>> 6) + 1 < 4))
    some (((a.limb (offset >>> 6) >>> (offset &&& 0x3F)) |||
      u64 (a.limb ((offset >>> 6) + 1) <<< (64 - (offset &&& 0x3F)))) &&&
      (0xFFFFFFFF >>> (32 - count)))

/-- `secp256k1_scalar_add`, scalar_4x64_impl.h:94-118: the sum and the return value -/
def scAddV (a b : Sc4) : Option (Sc4 × ℕ) := do
  scVerify a
  scVerify b
  let s := Sc4.addRaw a b
  let overflow := s.2 + bit s.1.checkOverflow
  check (decide (overflow = 0) || decide (overflow = 1))
  let r ← scReduceV s.1 overflow
  scVerify r
  some (r, overflow)

/-- The accumulator `t` at the end of `secp256k1_scalar_cadd_bit`, scalar_4x64_impl.h:126-138 -/
def caddBitTop (r : Sc4) (bitn : ℕ) (flag : Bool) : ℕ :=
  let bitn := bitn + (((bit flag + 2 ^ 32 - 1) % 2 ^ 32) &&& 0x100)
  let t := r.d0
  let t := u128AccumU64 t (u64 (bit (decide (bitn >>> 6 = 0)) <<< (bitn &&& 0x3F)))
  let t := u128Rshift t 64
  let t := u128AccumU64 t r.d1
  let t := u128AccumU64 t (u64 (bit (decide (bitn >>> 6 = 1)) <<< (bitn &&& 0x3F)))
  let t := u128Rshift t 64
  let t := u128AccumU64 t r.d2
  let t := u128AccumU64 t (u64 (bit (decide (bitn >>> 6 = 2)) <<< (bitn &&& 0x3F)))
  let t := u128Rshift t 64
  let t := u128AccumU64 t r.d3
  u128AccumU64 t (u64 (bit (decide (bitn >>> 6 = 3)) <<< (bitn &&& 0x3F)))

/-- `secp256k1_scalar_cadd_bit`, scalar_4x64_impl.h:120-142 -/
def scCaddBitV (r : Sc4) (bitn : ℕ) (flag : Bool) : Option Sc4 := do
  scVerify r
  check (decide (bitn < 256))
  let r' := r.caddBit bitn flag
  scVerify r'
  check (decide (u128HiU64 (caddBitTop r bitn flag) = 0))
  some r'

/-- `secp256k1_scalar_set_b32`, scalar_4x64_impl.h:144-156: the scalar and `*overflow` -/
def scSetB32V (b : ℕ → ℕ) : Option (Sc4 × Bool) := do
  let r : Sc4 := ⟨readBe64 b 24, readBe64 b 16, readBe64 b 8, readBe64 b 0⟩
  let over := r.checkOverflow
  let r ← scReduceV r (bit over)
  scVerify r
  some (r, over)

/-- `secp256k1_scalar_is_zero`, scalar_4x64_impl.h:167-171 -/
def scIsZeroV (a : Sc4) : Option Bool := do
  scVerify a
  some a.isZero

/-- `secp256k1_scalar_set_b32_seckey`, scalar_impl.h:34-40: the scalar and the return value -/
def scSetB32SeckeyV (b : ℕ → ℕ) : Option (Sc4 × Bool) := do
  let r ← scSetB32V b
  let z ← scIsZeroV r.1
  scVerify r.1
  some (r.1, !r.2 && !z)

/-- `secp256k1_scalar_get_b32`, scalar_4x64_impl.h:158-165 -/
def scGetB32V (a : Sc4) : Option (List UInt8) := do
  scVerify a
  some a.getB32

/-- `secp256k1_scalar_negate`, scalar_4x64_impl.h:173-192 -/
def scNegateV (a : Sc4) : Option Sc4 := do
  let _z ← scIsZeroV a
  scVerify a
  let r := a.negate
  scVerify r
  some r

/-- The 128-bit repetition of the last addition of `secp256k1_scalar_half`, scalar_4x64_impl.h:213-228: the
accumulator before it is shifted for the last time -/
def halfTop (a : Sc4) : ℕ :=
  let mask := (2 ^ 64 - (a.d0 &&& 1)) % 2 ^ 64
  let t := (a.d0 >>> 1) ||| u64 (a.d1 <<< 63)
  let t := u128AccumU64 t (u64 (scNH0 + 1) &&& mask)
  let t := u128Rshift t 64
  let t := u128AccumU64 t ((a.d1 >>> 1) ||| u64 (a.d2 <<< 63))
  let t := u128AccumU64 t (scNH1 &&& mask)
  let t := u128Rshift t 64
  let t := u128AccumU64 t ((a.d2 >>> 1) ||| u64 (a.d3 <<< 63))
  let t := u128AccumU64 t (scNH2 &&& mask)
  let t := u128Rshift t 64
  let t := u128AccumU64 t (a.d3 >>> 1)
  u128AccumU64 t (scNH3 &&& mask)

/-- `secp256k1_scalar_half`, scalar_4x64_impl.h:194-233 -/
def scHalfV (a : Sc4) : Option Sc4 := do
  scVerify a
  check (decide (u128ToU64 (u128Rshift (halfTop a) 64) = 0))
  let r := a.half
  scVerify r
  some r

/-- `secp256k1_scalar_is_one`, scalar_4x64_impl.h:235-239 -/
def scIsOneV (a : Sc4) : Option Bool := do
  scVerify a
  some a.isOne

/-- `secp256k1_scalar_is_high`, scalar_4x64_impl.h:241-253 -/
def scIsHighV (a : Sc4) : Option Bool := do
  scVerify a
  some a.isHigh

/-- `secp256k1_scalar_is_even`, scalar_4x64_impl.h:994-998 -/
def scIsEvenV (a : Sc4) : Option Bool := do
  scVerify a
  some a.isEven

/-- `secp256k1_scalar_cond_negate`, scalar_4x64_impl.h:255-279 -/
def scCondNegateV (r : Sc4) (flag : Bool) : Option (Sc4 × ℤ) := do
  let _z ← scIsZeroV r
  scVerify r
  let r' := r.condNegate flag
  scVerify r'.1
  some r'

/-- `secp256k1_scalar_split_128`, scalar_4x64_impl.h:866-880 -/
def scSplit128V (k : Sc4) : Option (Sc4 × Sc4) := do
  scVerify k
  let r := k.split128
  scVerify r.1
  scVerify r.2
  some r

/-- `secp256k1_scalar_eq`, scalar_4x64_impl.h:882-887 -/
def scEqV (a b : Sc4) : Option Bool := do
  scVerify a
  scVerify b
  some (Sc4.eq a b)

/-- The words of `secp256k1_scalar_mul_shift_var` before the rounding, scalar_4x64_impl.h:899-905 -/
def shiftWords (l : U512) (shift : ℕ) : Sc4 :=
  let shiftlimbs := shift >>> 6
  let shiftlow := shift &&& 0x3F
  let shifthigh := 64 - shiftlow
  let d0 := if shift < 512 then
      (l.get (0 + shiftlimbs) >>> shiftlow) |||
        (if shift < 448 ∧ shiftlow ≠ 0 then u64 (l.get (1 + shiftlimbs) <<< shifthigh) else 0)
    else 0
  let d1 := if shift < 448 then
      (l.get (1 + shiftlimbs) >>> shiftlow) |||
        (if shift < 384 ∧ shiftlow ≠ 0 then u64 (l.get (2 + shiftlimbs) <<< shifthigh) else 0)
    else 0
  let d2 := if shift < 384 then
      (l.get (2 + shiftlimbs) >>> shiftlow) |||
        (if shift < 320 ∧ shiftlow ≠ 0 then u64 (l.get (3 + shiftlimbs) <<< shifthigh) else 0)
    else 0
  let d3 := if shift < 320 then l.get (3 + shiftlimbs) >>> shiftlow else 0
  ⟨d0, d1, d2, d3⟩

/-- `secp256k1_scalar_mul_shift_var`, scalar_4x64_impl.h:889-909 -/
def scMulShiftVarV (a b : Sc4) (shift : ℕ) : Option Sc4 := do
  scVerify a
  scVerify b
  check (decide (shift ≥ 256))
  let l ← mul512V a b
  let r ← scCaddBitV (shiftWords l shift) 0
    (decide ((l.get ((shift - 1) >>> 6) >>> ((shift - 1) &&& 0x3f)) &&& 1 = 1))
  scVerify r
  some r

/-- `secp256k1_scalar_cmov`, scalar_4x64_impl.h:911-925 -/
def scCmovV (r a : Sc4) (flag : Bool) : Option Sc4 := do
  scVerify a
  let r := r.cmov a flag
  scVerify r
  some r

/-- The two comparisons with a bound of `secp256k1_scalar_split_lambda_verify`, scalar_impl.h:307-310 and
312-315 -/
def withinBoundV (r : Sc4) (bound : List UInt8) : Option Unit := do
  let buf1 ← scGetB32V r
  let s ← scNegateV r
  let buf2 ← scGetB32V s
  check (decide (memcmpVar buf1 bound 32 < 0) || decide (memcmpVar buf2 bound 32 < 0))

/-- `secp256k1_scalar_split_lambda_verify`, scalar_impl.h:286-316 -/
def scSplitLambdaVerify (r1 r2 k : Sc4) : Option Unit := do
  let s ← scMulV (Sc4.const constLambda) r2
  let s ← scAddV s r1
  let e ← scEqV s.1 k
  check e
  withinBoundV r1 k1Bound
  withinBoundV r2 k2Bound

/-- `secp256k1_scalar_split_lambda`, scalar_impl.h:142-180: the pair `(r1, r2)` -/
def scSplitLambdaV (k : Sc4) : Option (Sc4 × Sc4) := do
  scVerify k
  let c1 ← scMulShiftVarV k (Sc4.const splitG1) 384
  let c2 ← scMulShiftVarV k (Sc4.const splitG2) 384
  let c1 ← scMulV c1 (Sc4.const minusB1)
  let c2 ← scMulV c2 (Sc4.const minusB2)
  let r2 ← scAddV c1 c2
  let r2 := r2.1
  let r1 ← scMulV r2 (Sc4.const constLambda)
  let r1 ← scNegateV r1
  let r1 ← scAddV r1 k
  let r1 := r1.1
  scVerify r1
  scVerify r2
  scSplitLambdaVerify r1 r2 k
  some (r1, r2)

/-- `secp256k1_scalar_from_signed62`, scalar_4x64_impl.h:927-945 -/
def scFromSigned62V (a : S62) : Option Sc4 := do
  check (decide (toU64 a.v0 >>> 62 = 0))
  check (decide (toU64 a.v1 >>> 62 = 0))
  check (decide (toU64 a.v2 >>> 62 = 0))
  check (decide (toU64 a.v3 >>> 62 = 0))
  check (decide (toU64 a.v4 >>> 8 = 0))
  let r := Sc4.fromSigned62 a
  scVerify r
  some r

/-- `secp256k1_scalar_to_signed62`, scalar_4x64_impl.h:947-957 -/
def scToSigned62V (a : Sc4) : Option S62 := do
  scVerify a
  some a.toSigned62

/-- `secp256k1_scalar_inverse`, scalar_4x64_impl.h:964-977; `none` stands for undefined behaviour in
`secp256k1_modinv64`, too -/
def scInverseV (x : Sc4) : Option Sc4 := do
  let zeroIn ← scIsZeroV x
  scVerify x
  let s ← scToSigned62V x
  let s ← modinv64 s modinfoScalar
  let r ← scFromSigned62V s
  scVerify r
  let z ← scIsZeroV r
  check (z == zeroIn)
  some r

/-- `secp256k1_scalar_inverse_var`, scalar_4x64_impl.h:979-992, with at most `fuel` iterations of the loop of
`secp256k1_modinv64_var` -/
def scInverseVarV (fuel : ℕ) (x : Sc4) : Option Sc4 := do
  let zeroIn ← scIsZeroV x
  scVerify x
  let s ← scToSigned62V x
  let s ← modinv64Var fuel s modinfoScalar
  let r ← scFromSigned62V s
  scVerify r
  let z ← scIsZeroV r
  check (z == zeroIn)
  some r

end Secp.Model.Verify
