import Verif.Model.VerifyScalar

/-!
# The constant-time modular inverse in a build with `VERIFY`

`/repo/src/modinv64_impl.h` with its `VERIFY_CHECK`s, and those of the signed 128-bit arithmetic of
`/repo/src/int128_native_impl.h` that are not about overflow (overflow is undefined behaviour and gives `none` in
`Model/Modinv64` already).  The value `none` is an abort or undefined behaviour.
-/

namespace Secp.Model.Verify
open Secp

/-- `secp256k1_modinv64_abs`, modinv64_impl.h:31-36 -/
def modinvAbs (v : ℤ) : Option ℤ := do
  check (decide (v > -2 ^ 63))
  some (if v < 0 then -v else v)

/-- `SECP256K1_SIGNED62_ONE`, modinv64_impl.h:38 -/
def signed62One : S62 := ⟨1, 0, 0, 0, 0⟩

/-- `secp256k1_i128_to_i64`, int128_native_impl.h:75-78 -/
def i128ToI64V (c : ℤ) : Option ℤ := do
  check (decide (-2 ^ 63 ≤ c ∧ c < 2 ^ 63))
  some (i128ToI64 c)

/-- `secp256k1_modinv64_mul_62`, modinv64_impl.h:41-54, with five limbs -/
def mul62 (a : S62) (factor : ℤ) : Option S62 := do
  let c0 ← i128AccumMul 0 a.v0 factor
  let c1 ← i128AccumMul (i128Rshift62 c0) a.v1 factor
  let c2 ← i128AccumMul (i128Rshift62 c1) a.v2 factor
  let c3 ← i128AccumMul (i128Rshift62 c2) a.v3 factor
  let c ← i128AccumMul (i128Rshift62 c3) a.v4 factor
  let d ← i128ToI64V c
  check (decide (c = d))
  let top ← i128ToI64V c
  some ⟨(i128ToU64 c0 &&& m62 : ℕ), (i128ToU64 c1 &&& m62 : ℕ), (i128ToU64 c2 &&& m62 : ℕ),
    (i128ToU64 c3 &&& m62 : ℕ), top⟩

/-- `secp256k1_modinv64_mul_cmp_62`, modinv64_impl.h:57-72, with five limbs -/
def mulCmp62 (a b : S62) (factor : ℤ) : Option ℤ := do
  let am ← mul62 a 1
  let bm ← mul62 b factor
  check (decide (am.v0 / 2 ^ 62 = 0))
  check (decide (bm.v0 / 2 ^ 62 = 0))
  check (decide (am.v1 / 2 ^ 62 = 0))
  check (decide (bm.v1 / 2 ^ 62 = 0))
  check (decide (am.v2 / 2 ^ 62 = 0))
  check (decide (bm.v2 / 2 ^ 62 = 0))
  check (decide (am.v3 / 2 ^ 62 = 0))
  check (decide (bm.v3 / 2 ^ 62 = 0))
  some (if am.v4 < bm.v4 then -1 else if am.v4 > bm.v4 then 1
    else if am.v3 < bm.v3 then -1 else if am.v3 > bm.v3 then 1
    else if am.v2 < bm.v2 then -1 else if am.v2 > bm.v2 then 1
    else if am.v1 < bm.v1 then -1 else if am.v1 > bm.v1 then 1
    else if am.v0 < bm.v0 then -1 else if am.v0 > bm.v0 then 1 else 0)

/-- The checks that `a > lo * b` and `a < hi * b` (or `a ≤ hi * b`), e.g. modinv64_impl.h:100-101, 418-419 and
605-606 -/
def rangeCheck (a b : S62) (lo hi : ℤ) (strict : Bool) : Option Unit := do
  let c ← mulCmp62 a b lo
  check (decide (c > 0))
  let c ← mulCmp62 a b hi
  check (if strict then decide (c < 0) else decide (c ≤ 0))

/-- `secp256k1_modinv64_det_check_pow2` without `abs`, modinv64_impl.h:75-81, with `secp256k1_i128_det` and
`secp256k1_i128_check_pow2`, int128_native_impl.h:59-64 and 88-92 -/
def detCheckPow2 (t : Trans) (n : ℕ) : Option Bool := do
  let ad ← i128? (t.u * t.r)
  let bc ← i128? (t.v * t.q)
  check (if 0 ≤ bc then decide (-2 ^ 127 + bc ≤ ad) else decide (ad ≤ 2 ^ 127 - 1 + bc))
  let a ← i128? (ad - bc)
  check (decide (n < 127))
  some (decide (a = 2 ^ n))

/-- The limb checks at the start of `secp256k1_modinv64_normalize_62`, modinv64_impl.h:96-99 -/
def limbCheck (x : ℤ) : Option Unit := do
  check (decide (x ≥ -(2 ^ 62 - 1)))
  check (decide (x ≤ 2 ^ 62 - 1))

/-- `secp256k1_modinv64_normalize_62`, modinv64_impl.h:88-154 -/
def normalize62V (r : S62) (sign : ℤ) (M : Modinfo) : Option S62 := do
  limbCheck r.v0
  limbCheck r.v1
  limbCheck r.v2
  limbCheck r.v3
  limbCheck r.v4
  rangeCheck r M.modulus (-2) 1 true
  let s ← normalize62 r sign M
  check (decide (s.v0 / 2 ^ 62 = 0))
  check (decide (s.v1 / 2 ^ 62 = 0))
  check (decide (s.v2 / 2 ^ 62 = 0))
  check (decide (s.v3 / 2 ^ 62 = 0))
  check (decide (s.v4 / 2 ^ 62 = 0))
  let c ← mulCmp62 s M.modulus 0
  check (decide (c ≥ 0))
  let c ← mulCmp62 s M.modulus 1
  check (decide (c < 0))
  some s

/-- Loop of `secp256k1_modinv64_divsteps_59`, modinv64_impl.h:180-211: the number of iterations left, and `i` -/
def divsteps59LoopV (f0 g0 : ℕ) : ℕ → ℕ → DivVars → Option DivVars
  | 0, _, s => some s
  | k + 1, i, s => do
    check (decide (s.f &&& 1 = 1))
    check (decide (u64 (u64 (s.u * f0) + u64 (s.v * g0)) = u64 (s.f <<< i)))
    check (decide (u64 (u64 (s.q * f0) + u64 (s.r * g0)) = u64 (s.g <<< i)))
    let s := divsteps59Step s
    check (decide (s.z ≥ -591) && decide (s.z ≤ 591))
    divsteps59LoopV f0 g0 k (i + 1) s

/-- `secp256k1_modinv64_divsteps_59`, modinv64_impl.h:167-227 -/
def divsteps59V (zeta : ℤ) (f0 g0 : ℕ) : Option (ℤ × Trans) := do
  let s ← divsteps59LoopV f0 g0 59 3 ⟨zeta, f0, g0, 8, 0, 0, 8⟩
  let b ← detCheckPow2 s.trans 65
  check b
  some (s.z, s.trans)

/-- One row of `secp256k1_modinv64_update_de_62`, modinv64_impl.h:411-494: the checks on the matrix row and the low bits -/
def updateDeRowV (u v : ℤ) (d e : S62) (M : Modinfo) : Option S62 := do
  let au ← modinvAbs u
  let av ← modinvAbs v
  check (decide (au ≤ 2 ^ 62 - av))
  let sd := d.v4 / 2 ^ 63
  let se := e.v4 / 2 ^ 63
  let md ← i64? (and64 u sd + and64 v se)
  let c ← (i128Mul u d.v0).bind fun c => i128AccumMul c v e.v0
  let md := toI64 (u64 (toU64 md + (2 ^ 64 - (u64 (u64 (M.inv62 * i128ToU64 c) + toU64 md) &&& m62))) : ℕ)
  let c0 ← i128AccumMul c M.modulus.v0 md
  check (decide (i128ToU64 c0 &&& m62 = 0))
  let a1 ← accum2 (i128Rshift62 c0) u d.v1 v e.v1
  let c1 ← accumMod a1 M.modulus.v1 md
  let a2 ← accum2 (i128Rshift62 c1) u d.v2 v e.v2
  let c2 ← accumMod a2 M.modulus.v2 md
  let a3 ← accum2 (i128Rshift62 c2) u d.v3 v e.v3
  let c3 ← accumMod a3 M.modulus.v3 md
  let a4 ← accum2 (i128Rshift62 c3) u d.v4 v e.v4
  let c4 ← i128AccumMul a4 M.modulus.v4 md
  let top ← i128ToI64V (i128Rshift62 c4)
  some ⟨(i128ToU64 c1 &&& m62 : ℕ), (i128ToU64 c2 &&& m62 : ℕ), (i128ToU64 c3 &&& m62 : ℕ),
    (i128ToU64 c4 &&& m62 : ℕ), top⟩

/-- `secp256k1_modinv64_update_de_62`, modinv64_impl.h:411-494 -/
def updateDe62V (d e : S62) (t : Trans) (M : Modinfo) : Option (S62 × S62) := do
  rangeCheck d M.modulus (-2) 1 true
  rangeCheck e M.modulus (-2) 1 true
  let d' ← updateDeRowV t.u t.v d e M
  let e' ← updateDeRowV t.q t.r d e M
  rangeCheck d' M.modulus (-2) 1 true
  rangeCheck e' M.modulus (-2) 1 true
  some (d', e')

/-- One row of `secp256k1_modinv64_update_fg_62`, modinv64_impl.h:500-545 -/
def updateFgRowV (u v : ℤ) (f g : S62) : Option S62 := do
  let c0 ← (i128Mul u f.v0).bind fun c => i128AccumMul c v g.v0
  check (decide (i128ToU64 c0 &&& m62 = 0))
  let c1 ← accum2 (i128Rshift62 c0) u f.v1 v g.v1
  let c2 ← accum2 (i128Rshift62 c1) u f.v2 v g.v2
  let c3 ← accum2 (i128Rshift62 c2) u f.v3 v g.v3
  let c4 ← accum2 (i128Rshift62 c3) u f.v4 v g.v4
  let top ← i128ToI64V (i128Rshift62 c4)
  some ⟨(i128ToU64 c1 &&& m62 : ℕ), (i128ToU64 c2 &&& m62 : ℕ), (i128ToU64 c3 &&& m62 : ℕ),
    (i128ToU64 c4 &&& m62 : ℕ), top⟩

/-- `secp256k1_modinv64_update_fg_62`, modinv64_impl.h:500-545 -/
def updateFg62V (f g : S62) (t : Trans) : Option (S62 × S62) := do
  let f' ← updateFgRowV t.u t.v f g
  let g' ← updateFgRowV t.q t.r f g
  some (f', g')

/-- The ranges of `f` and `g`, modinv64_impl.h:605-608 and 612-615 -/
def fgCheck (f g : S62) (M : Modinfo) : Option Unit := do
  rangeCheck f M.modulus (-1) 1 false
  rangeCheck g M.modulus (-1) 1 true

/-- Loop of `secp256k1_modinv64`, modinv64_impl.h:598-616: `k` iterations left -/
def modinv64LoopV (M : Modinfo) : ℕ → ℤ → S62 → S62 → S62 → S62 → Option (S62 × S62 × S62)
  | 0, _, d, _, f, g => some (d, f, g)
  | k + 1, zeta, d, e, f, g => do
    let zt ← divsteps59V zeta (toU64 f.v0) (toU64 g.v0)
    let de ← updateDe62V d e zt.2 M
    fgCheck f g M
    let fg ← updateFg62V f g zt.2
    fgCheck fg.1 fg.2 M
    modinv64LoopV M k zt.1 de.1 de.2 fg.1 fg.2

/-- The checks on the final values, modinv64_impl.h:622-629: `g` is zero, and `f` is plus or minus one or `x` was
zero -/
def finalCheck (x d f g : S62) (M : Modinfo) : Option Unit := do
  let c ← mulCmp62 g signed62One 0
  check (decide (c = 0))
  let c ← mulCmp62 f signed62One (-1)
  if c = 0 then some ()
  else do
    let c ← mulCmp62 f signed62One 1
    if c = 0 then some ()
    else do
      let c ← mulCmp62 x signed62One 0
      check (decide (c = 0))
      let c ← mulCmp62 d signed62One 0
      check (decide (c = 0))
      let c ← mulCmp62 f M.modulus 1
      check (decide (c = 0))

/-- `secp256k1_modinv64`, modinv64_impl.h:588-634 -/
def modinv64V (x : S62) (M : Modinfo) : Option S62 := do
  let r ← modinv64LoopV M 10 (-1) ⟨0, 0, 0, 0, 0⟩ ⟨1, 0, 0, 0, 0⟩ M.modulus x
  finalCheck x r.1 r.2.1 r.2.2 M
  normalize62V r.1 r.2.1.v4 M

/-- `secp256k1_scalar_inverse` with the checks of `secp256k1_modinv64`, scalar_4x64_impl.h:964-977 -/
def scInverseAllV (x : Sc4) : Option Sc4 := do
  let zeroIn ← scIsZeroV x
  scVerify x
  let s ← scToSigned62V x
  let s ← modinv64V s modinfoScalar
  let r ← scFromSigned62V s
  scVerify r
  let z ← scIsZeroV r
  check (z == zeroIn)
  some r

/-- `secp256k1_fe_from_signed62`, field_5x52_impl.h:443-461 -/
def feFromSigned62V (a : S62) : Option Fe5 := do
  check (decide (toU64 a.v0 >>> 62 = 0))
  check (decide (toU64 a.v1 >>> 62 = 0))
  check (decide (toU64 a.v2 >>> 62 = 0))
  check (decide (toU64 a.v3 >>> 62 = 0))
  check (decide (toU64 a.v4 >>> 8 = 0))
  some (Fe5.fromSigned62 a)

/-- `secp256k1_fe_impl_inv`, field_5x52_impl.h:479-487.  The checks of the field functions called on the way and of
`secp256k1_fe_inv` itself are in `Model/Verify`. -/
def feImplInvV (x : Fe5) : Option Fe5 := do
  let s ← modinv64V (Fe5.toSigned62 (Fe5.normalize x)) modinfoFe
  feFromSigned62V s

end Secp.Model.Verify
