import Verif.Model.VerifyModinv

/-!
# The variable-time modular inverse in a build with `VERIFY`

`secp256k1_modinv64_var` of `/repo/src/modinv64_impl.h` with its `VERIFY_CHECK`s.  The value `none` is an abort or
undefined behaviour.
-/

namespace Secp.Model.Verify
open Secp

/-- `if (i < alen) secp256k1_i128_accum_mul(&c, a->v[i], factor)`, modinv64_impl.h:47 and 50 -/
def accumIf (b : Bool) (c x factor : ℤ) : Option ℤ := if b then i128AccumMul c x factor else some c

/-- `secp256k1_modinv64_mul_62` with `alen` limbs, modinv64_impl.h:41-54 -/
def mul62Len (v : List ℤ) (alen : ℕ) (factor : ℤ) : Option S62 := do
  let c0 ← accumIf (decide (0 < alen)) 0 (v.getD 0 0) factor
  let c1 ← accumIf (decide (1 < alen)) (i128Rshift62 c0) (v.getD 1 0) factor
  let c2 ← accumIf (decide (2 < alen)) (i128Rshift62 c1) (v.getD 2 0) factor
  let c3 ← accumIf (decide (3 < alen)) (i128Rshift62 c2) (v.getD 3 0) factor
  let c ← accumIf (decide (4 < alen)) (i128Rshift62 c3) (v.getD 4 0) factor
  let d ← i128ToI64V c
  check (decide (c = d))
  let top ← i128ToI64V c
  some ⟨(i128ToU64 c0 &&& m62 : ℕ), (i128ToU64 c1 &&& m62 : ℕ), (i128ToU64 c2 &&& m62 : ℕ),
    (i128ToU64 c3 &&& m62 : ℕ), top⟩

/-- `secp256k1_modinv64_mul_cmp_62` with `alen` limbs of `a`, modinv64_impl.h:57-72 -/
def mulCmp62Len (v : List ℤ) (alen : ℕ) (b : S62) (factor : ℤ) : Option ℤ := do
  let am ← mul62Len v alen 1
  let bm ← mul62 b factor
  check (decide (am.v0 / 2 ^ 62 = 0))
  check (decide (bm.v0 / 2 ^ 62 = 0))
  check (decide (am.v1 / 2 ^ 62 = 0))
  check (decide (bm.v1 / 2 ^ 62 = 0))
  check (decide (am.v2 / 2 ^ 62 = 0))
  check (decide (bm.v2 / 2 ^ 62 = 0))
  check (decide (am.v3 / 2 ^ 62 = 0))
  check (decide (bm.v3 / 2 ^ 62 = 0))
  some (if am.v4 < bm.v4 then -1 else if am.v4 > bm.v4 then 1
    else if am.v3 < bm.v3 then -1 else if am.v3 > bm.v3 then 1
    else if am.v2 < bm.v2 then -1 else if am.v2 > bm.v2 then 1
    else if am.v1 < bm.v1 then -1 else if am.v1 > bm.v1 then 1
    else if am.v0 < bm.v0 then -1 else if am.v0 > bm.v0 then 1 else 0)

/-- The ranges of `f` and `g` with `len` limbs, modinv64_impl.h:658-661 and 689-692 -/
def fgCheckLen (len : ℕ) (f g : List ℤ) (M : Modinfo) : Option Unit := do
  let c ← mulCmp62Len f len M.modulus (-1)
  check (decide (c > 0))
  let c ← mulCmp62Len f len M.modulus 1
  check (decide (c ≤ 0))
  let c ← mulCmp62Len g len M.modulus (-1)
  check (decide (c > 0))
  let c ← mulCmp62Len g len M.modulus 1
  check (decide (c < 0))

/-- The head of the loop with the check of `secp256k1_ctz64_var`, modinv64_impl.h:247-253 and util.h:383 -/
def shiftZerosV (s : DivVars) (i : ℕ) : Option (DivVars × ℕ × ℕ) := do
  check (decide (s.g ||| u64 ((2 ^ 64 - 1) <<< i) ≠ 0))
  shiftZeros s i

/-- `limit`, its check and the mask `m`, modinv64_impl.h:273-276 and 283-286: `top` is 63 or 15. -/
def limitMaskV (eta : ℤ) (i top : ℕ) : Option ℕ := do
  let e1 ← i32? (toI32 eta + 1)
  let limit := if e1 > i then (i : ℤ) else e1
  check (decide (limit > 0 ∧ limit ≤ 62))
  some (((2 ^ 64 - 1) >>> (64 - limit).toNat) &&& top)

/-- Loop of `secp256k1_modinv64_divsteps_62_var`, modinv64_impl.h:246-296 -/
def divsteps62VarLoopV (f0 g0 : ℕ) : ℕ → DivVars → ℕ → Option DivVars
  | 0, _, _ => none
  | k + 1, s, i => do
    let si ← shiftZerosV s i
    if si.2.1 = 0 then some si.1
    else do
      check (decide (si.1.f &&& 1 = 1))
      check (decide (si.1.g &&& 1 = 1))
      check (decide (u64 (u64 (si.1.u * f0) + u64 (si.1.v * g0)) = u64 (si.1.f <<< (62 - si.2.1))))
      check (decide (u64 (u64 (si.1.q * f0) + u64 (si.1.r * g0)) = u64 (si.1.g <<< (62 - si.2.1))))
      check (decide (si.1.z ≥ -745) && decide (si.1.z ≤ 745))
      if si.1.z < 0 then do
        let eta ← i64? (-si.1.z)
        let s' : DivVars := ⟨eta, si.1.g, u64 (2 ^ 64 - si.1.f), si.1.q, si.1.r, u64 (2 ^ 64 - si.1.u),
          u64 (2 ^ 64 - si.1.v)⟩
        let m ← limitMaskV eta si.2.1 63
        check (decide ((addMultiple s' (cancel6 s'.f s'.g m)).g &&& m = 0))
        divsteps62VarLoopV f0 g0 k (addMultiple s' (cancel6 s'.f s'.g m)) si.2.1
      else do
        let m ← limitMaskV si.1.z si.2.1 15
        check (decide ((addMultiple si.1 (cancel4 si.1.f si.1.g m)).g &&& m = 0))
        divsteps62VarLoopV f0 g0 k (addMultiple si.1 (cancel4 si.1.f si.1.g m)) si.2.1

/-- `secp256k1_modinv64_divsteps_62_var`, modinv64_impl.h:239-310 -/
def divsteps62VarV (eta : ℤ) (f0 g0 : ℕ) : Option (ℤ × Trans) := do
  let s ← divsteps62VarLoopV f0 g0 63 ⟨eta, f0, g0, 1, 0, 0, 1⟩ 62
  let b ← detCheckPow2 s.trans 62
  check b
  some (s.z, s.trans)

/-- The loop of one row of `secp256k1_modinv64_update_fg_62_var`, modinv64_impl.h:572-584 -/
def fgVarRowLoopV (u v : ℤ) : List ℤ → List ℤ → ℤ → Option (List ℤ)
  | fi :: fs, gi :: gs, c =>
    (accum2 c u fi v gi).bind fun c =>
    (fgVarRowLoopV u v fs gs (i128Rshift62 c)).bind fun rest =>
    some (((i128ToU64 c &&& m62 : ℕ) : ℤ) :: rest)
  | _, _, c => (i128ToI64V c).bind fun top => some [top]

/-- One row of `secp256k1_modinv64_update_fg_62_var`, modinv64_impl.h:553-585 -/
def fgVarRowV (u v : ℤ) (len : ℕ) (f g : List ℤ) : Option (List ℤ) := do
  let c ← (i128Mul u (f.getD 0 0)).bind fun c => i128AccumMul c v (g.getD 0 0)
  check (decide (i128ToU64 c &&& m62 = 0))
  fgVarRowLoopV u v ((f.take len).drop 1) ((g.take len).drop 1) (i128Rshift62 c)

/-- `secp256k1_modinv64_update_fg_62_var`, modinv64_impl.h:553-585 -/
def updateFg62VarV (len : ℕ) (f g : List ℤ) (t : Trans) : Option (List ℤ × List ℤ) := do
  check (decide (len > 0))
  let f' ← fgVarRowV t.u t.v len f g
  let g' ← fgVarRowV t.q t.r len f g
  some (f' ++ f.drop len, g' ++ g.drop len)

/-- Loop of `secp256k1_modinv64_var`, modinv64_impl.h:651-693: the bound on the number of passes, then `i` and
`len`.  Returned: `d`, `len`, `f` and `g`. -/
def modinv64VarLoopV (M : Modinfo) :
    ℕ → ℕ → ℕ → ℤ → S62 → S62 → List ℤ → List ℤ → Option (S62 × ℕ × List ℤ × List ℤ)
  | 0, _, _, _, _, _, _, _ => none
  | k + 1, i, len, eta, d, e, f, g => do
    let et ← divsteps62VarV eta (toU64 (f.getD 0 0)) (toU64 (g.getD 0 0))
    let de ← updateDe62V d e et.2 M
    fgCheckLen len f g M
    let fg ← updateFg62VarV len f g et.2
    if fg.2.getD 0 0 = 0 ∧ orLimbs len fg.2 = 0 then some (de.1, len, fg.1, fg.2)
    else if shrinkCond len (fg.1.getD (len - 1) 0) (fg.2.getD (len - 1) 0) = 0 then do
      check (decide (i + 1 < 12))
      fgCheckLen (len - 1) (mergeTop len fg.1 (fg.1.getD (len - 1) 0)) (mergeTop len fg.2 (fg.2.getD (len - 1) 0)) M
      modinv64VarLoopV M k (i + 1) (len - 1) et.1 de.1 de.2 (mergeTop len fg.1 (fg.1.getD (len - 1) 0))
        (mergeTop len fg.2 (fg.2.getD (len - 1) 0))
    else do
      check (decide (i + 1 < 12))
      fgCheckLen len fg.1 fg.2 M
      modinv64VarLoopV M k (i + 1) len et.1 de.1 de.2 fg.1 fg.2

/-- The checks on the final values, modinv64_impl.h:698-705 -/
def finalCheckLen (x d : S62) (len : ℕ) (f g : List ℤ) (M : Modinfo) : Option Unit := do
  let c ← mulCmp62Len g len signed62One 0
  check (decide (c = 0))
  let c ← mulCmp62Len f len signed62One (-1)
  if c = 0 then some ()
  else do
    let c ← mulCmp62Len f len signed62One 1
    if c = 0 then some ()
    else do
      let c ← mulCmp62 x signed62One 0
      check (decide (c = 0))
      let c ← mulCmp62 d signed62One 0
      check (decide (c = 0))
      let c ← mulCmp62Len f len M.modulus 1
      check (decide (c = 0))

/-- `secp256k1_modinv64_var`, modinv64_impl.h:637-710, with at most `fuel` passes of its loop (the check on the
counter ends it before the thirteenth) -/
def modinv64VarV (fuel : ℕ) (x : S62) (M : Modinfo) : Option S62 := do
  let r ← modinv64VarLoopV M fuel 0 5 (-1) ⟨0, 0, 0, 0, 0⟩ ⟨1, 0, 0, 0, 0⟩ M.modulus.toList x.toList
  finalCheckLen x r.1 r.2.1 r.2.2.1 r.2.2.2 M
  normalize62V r.1 (r.2.2.1.getD (r.2.1 - 1) 0) M

/-- `secp256k1_scalar_inverse_var` with the checks of `secp256k1_modinv64_var`, scalar_4x64_impl.h:979-992 -/
def scInverseVarAllV (fuel : ℕ) (x : Sc4) : Option Sc4 := do
  let zeroIn ← scIsZeroV x
  scVerify x
  let s ← scToSigned62V x
  let s ← modinv64VarV fuel s modinfoScalar
  let r ← scFromSigned62V s
  scVerify r
  let z ← scIsZeroV r
  check (z == zeroIn)
  some r

/-- `secp256k1_fe_impl_inv_var`, field_5x52_impl.h:489-497 -/
def feImplInvVarV (fuel : ℕ) (x : Fe5) : Option Fe5 := do
  let s ← modinv64VarV fuel (Fe5.toSigned62 (Fe5.normalizeVar x)) modinfoFe
  feFromSigned62V s

end Secp.Model.Verify
