import Verif.Model.VerifyModinvVar

/-!
# The Jacobi symbol in a build with `VERIFY`

`secp256k1_jacobi64_maybe_var` of `/repo/src/modinv64_impl.h` with its `VERIFY_CHECK`s and with the twelve passes that
such a build makes in place of 25.  The value `none` is an abort or undefined behaviour.
-/

namespace Secp.Model.Verify
open Secp

/-- `secp256k1_modinv64_det_check_pow2` with `abs`, modinv64_impl.h:75-81, with `secp256k1_i128_det` and
`secp256k1_i128_check_pow2`, int128_native_impl.h:59-64 and 88-92 -/
def detCheckPow2Abs (t : Trans) (n : ℕ) : Option Bool := do
  let ad ← i128? (t.u * t.r)
  let bc ← i128? (t.v * t.q)
  check (if 0 ≤ bc then decide (-2 ^ 127 + bc ≤ ad) else decide (ad ≤ 2 ^ 127 - 1 + bc))
  let a ← i128? (ad - bc)
  check (decide (n < 127))
  some (decide (a = 2 ^ n) || decide (a = -2 ^ n))

/-- Loop of `secp256k1_modinv64_posdivsteps_62_var`, modinv64_impl.h:333-387 -/
def posdivsteps62VarLoopV (f0 g0 : ℕ) : ℕ → DivVars → ℕ → ℕ → Option (DivVars × ℕ)
  | 0, _, _, _ => none
  | k + 1, s, i, jac => do
    let si ← shiftZerosV s i
    let jac := (jac ^^^ (si.2.2 &&& ((si.1.f >>> 1) ^^^ (si.1.f >>> 2)))) % 2 ^ 32
    if si.2.1 = 0 then some (si.1, jac)
    else do
      check (decide (si.1.f &&& 1 = 1))
      check (decide (si.1.g &&& 1 = 1))
      check (decide (u64 (u64 (si.1.u * f0) + u64 (si.1.v * g0)) = u64 (si.1.f <<< (62 - si.2.1))))
      check (decide (u64 (u64 (si.1.q * f0) + u64 (si.1.r * g0)) = u64 (si.1.g <<< (62 - si.2.1))))
      if si.1.z < 0 then do
        let eta ← i64? (-si.1.z)
        let s' : DivVars := ⟨eta, si.1.g, si.1.f, si.1.q, si.1.r, si.1.u, si.1.v⟩
        let m ← limitMaskV eta si.2.1 63
        check (decide ((addMultiple s' (cancel6 s'.f s'.g m)).g &&& m = 0))
        posdivsteps62VarLoopV f0 g0 k (addMultiple s' (cancel6 s'.f s'.g m)) si.2.1
          ((jac ^^^ ((s'.f &&& s'.g) >>> 1)) % 2 ^ 32)
      else do
        let m ← limitMaskV si.1.z si.2.1 15
        check (decide ((addMultiple si.1 (cancel4 si.1.f si.1.g m)).g &&& m = 0))
        posdivsteps62VarLoopV f0 g0 k (addMultiple si.1 (cancel4 si.1.f si.1.g m)) si.2.1 jac

/-- `secp256k1_modinv64_posdivsteps_62_var`, modinv64_impl.h:325-402 -/
def posdivsteps62VarV (eta : ℤ) (f0 g0 jac : ℕ) : Option (ℤ × Trans × ℕ) := do
  let s ← posdivsteps62VarLoopV f0 g0 63 ⟨eta, f0, g0, 1, 0, 0, 1⟩ 62 jac
  let b ← detCheckPow2Abs s.1.trans 62
  check b
  some (s.1.z, s.1.trans, s.2)

/-- The ranges of `f` and `g`, modinv64_impl.h:744-747 and 769-772 -/
def fgCheckPos (len : ℕ) (f g : List ℤ) (M : Modinfo) : Option Unit := do
  let c ← mulCmp62Len f len M.modulus 0
  check (decide (c > 0))
  let c ← mulCmp62Len f len M.modulus 1
  check (decide (c ≤ 0))
  let c ← mulCmp62Len g len M.modulus 0
  check (decide (c > 0))
  let c ← mulCmp62Len g len M.modulus 1
  check (decide (c < 0))

/-- Loop of `secp256k1_jacobi64_maybe_var`, modinv64_impl.h:739-774: `k` iterations left -/
def jacobi64LoopV (M : Modinfo) : ℕ → ℕ → ℤ → ℕ → List ℤ → List ℤ → Option ℤ
  | 0, _, _, _, _, _ => some 0
  | k + 1, len, eta, jac, f, g => do
    let et ← posdivsteps62VarV eta (low64 f) (low64 g) jac
    fgCheckPos len f g M
    let fg ← updateFg62VarV len f g et.2.1
    if fg.1.getD 0 0 = 1 ∧ orLimbs len fg.1 = 0 then some (1 - 2 * ((et.2.2 &&& 1 : ℕ) : ℤ))
    else if or64 (or64 (((len : ℤ) - 2) / 2 ^ 63) (fg.1.getD (len - 1) 0)) (fg.2.getD (len - 1) 0) = 0 then do
      fgCheckPos (len - 1) fg.1 fg.2 M
      jacobi64LoopV M k (len - 1) et.1 et.2.2 fg.1 fg.2
    else do
      fgCheckPos len fg.1 fg.2 M
      jacobi64LoopV M k len et.1 et.2.2 fg.1 fg.2

/-- `secp256k1_jacobi64_maybe_var`, modinv64_impl.h:721-778, with `JACOBI64_ITERATIONS` 12 -/
def jacobi64MaybeVarV (x : S62) (M : Modinfo) : Option ℤ := do
  check (decide (x.v0 ≥ 0) && decide (x.v1 ≥ 0) && decide (x.v2 ≥ 0) && decide (x.v3 ≥ 0) && decide (x.v4 ≥ 0))
  check (decide (or64 (or64 (or64 (or64 x.v0 x.v1) x.v2) x.v3) x.v4 ≠ 0))
  jacobi64LoopV M 12 5 (-1) 0 M.modulus.toList x.toList

/-- `secp256k1_fe_impl_is_square_var`, field_5x52_impl.h:499-520; the checks of `secp256k1_fe_sqrt` and of
`secp256k1_fe_normalize_var` are those of C80. -/
def feImplIsSquareVarV [Fe5.LimbInv] (x : Fe5) : Option Bool := do
  let tmp := Fe5.normalizeVar x
  if Fe5.isZero tmp then some true
  else do
    let jac ← jacobi64MaybeVarV (Fe5.toSigned62 tmp) modinfoFe
    if jac = 0 then some (FeOps.sqrt tmp).2 else some (decide (jac ≥ 0))

end Secp.Model.Verify
