import Verif.Model.FeOps
import Verif.Model.Modinv64
import Verif.Model.Field10x26
import Verif.Model.Scalar8x32

/-!
# Model of the 32-bit safegcd modular inversion

`/repo/src/modinv32.h`, `/repo/src/modinv32_impl.h`, and the callers in
`/repo/src/field_10x26_impl.h` and `/repo/src/scalar_8x32_impl.h`.

The conventions are those of `Verif/Model/Modinv64.lean`: unsigned words are natural numbers reduced
explicitly, an `int32_t` or `int64_t` is an integer, checked operations (`i32?`, `i64?`) return `none`
for an overflow, right shifts are arithmetic and conversions to signed types wrap
(`/repo/src/assumptions.h:28-73`).  An array `v[9]` is a list of integers, lowest limb first.
`volatile` copies and `VERIFY_CHECK`s are not modelled.
-/

namespace Secp.Model.M32

/-- Conversion of a signed value to `uint32_t` -/
def toU32 (x : ℤ) : ℕ := (x % 2 ^ 32).toNat

/-- `a & b` on `int32_t` -/
def and32 (a b : ℤ) : ℤ := toI32 (toU32 a &&& toU32 b : ℕ)
/-- `a | b` on `int32_t` -/
def or32 (a b : ℤ) : ℤ := toI32 (toU32 a ||| toU32 b : ℕ)
/-- `a ^ b` on `int32_t` -/
def xor32 (a b : ℤ) : ℤ := toI32 (toU32 a ^^^ toU32 b : ℕ)

/-- `M30`, e.g. modinv32_impl.h:64 -/
def m30 : ℕ := 2 ^ 30 - 1

/-- `secp256k1_modinv32_modinfo`, modinv32.h:19-25 -/
structure Modinfo where
  modulus : List ℤ
  inv30 : ℕ

/-- First addition of the modulus and conditional negation,
`secp256k1_modinv32_normalize_30`, modinv32_impl.h:86-104.  The C code adds to all limbs before it
negates any; the limbs do not interact. -/
def normLimbs (condAdd condNegate : ℤ) : List ℤ → List ℤ → Option (List ℤ)
  | r :: rs, m :: ms =>
    (i32? (r + and32 m condAdd)).bind fun r =>
    (i32? (xor32 r condNegate - condNegate)).bind fun r =>
    (normLimbs condAdd condNegate rs ms).bind fun rest => some (r :: rest)
  | _, _ => some []

/-- Second addition of the modulus, modinv32_impl.h:118-126 -/
def addLimbs (condAdd : ℤ) : List ℤ → List ℤ → Option (List ℤ)
  | r :: rs, m :: ms =>
    (i32? (r + and32 m condAdd)).bind fun r =>
    (addLimbs condAdd rs ms).bind fun rest => some (r :: rest)
  | _, _ => some []

/-- Propagation of the top bits, modinv32_impl.h:106-113 and 128-135, from limb `r` into the limbs
above it -/
def normCarryFrom (r : ℤ) : List ℤ → Option (List ℤ)
  | [] => some [r]
  | a :: l =>
    (i32? (a + r / 2 ^ 30)).bind fun a =>
    (normCarryFrom a l).bind fun rest => some (and32 r m30 :: rest)

/-- Propagation over the whole number -/
def normCarry : List ℤ → Option (List ℤ)
  | [] => some []
  | r :: l => normCarryFrom r l

/-- `secp256k1_modinv32_normalize_30`, modinv32_impl.h:63-158 -/
def normalize30 (r : List ℤ) (sign : ℤ) (M : Modinfo) : Option (List ℤ) :=
  (normLimbs (r.getD 8 0 / 2 ^ 31) (sign / 2 ^ 31) r M.modulus).bind fun r =>
  (normCarry r).bind fun r =>
  (addLimbs (r.getD 8 0 / 2 ^ 31) r M.modulus).bind fun r =>
  normCarry r

/-- The matrix handed back: `(int32_t)u` etc., modinv32_impl.h:224-227 and 309-312 -/
def trans (s : DivVars) : Trans := ⟨toI32 s.u, toI32 s.v, toI32 s.q, toI32 s.r⟩

/-- Body of the loop of `secp256k1_modinv32_divsteps_30`, modinv32_impl.h:191-222 -/
def divsteps30Step (s : DivVars) : DivVars :=
  let mask1 := toU32 (s.z / 2 ^ 31)
  let mask2 := u32 (2 ^ 32 - (s.g &&& 1))
  let x := u32 ((s.f ^^^ mask1) + (2 ^ 32 - mask1))
  let y := u32 ((s.u ^^^ mask1) + (2 ^ 32 - mask1))
  let z := u32 ((s.v ^^^ mask1) + (2 ^ 32 - mask1))
  let g := u32 (s.g + (x &&& mask2))
  let q := u32 (s.q + (y &&& mask2))
  let r := u32 (s.r + (z &&& mask2))
  let mask1 := mask1 &&& mask2
  let zeta := toI32 (u32 ((toU32 s.z ^^^ mask1) + (2 ^ 32 - 1)) : ℕ)
  let f := u32 (s.f + (g &&& mask1))
  let u := u32 (s.u + (q &&& mask1))
  let v := u32 (s.v + (r &&& mask1))
  ⟨zeta, f, g >>> 1, u32 (u <<< 1), u32 (v <<< 1), q, r⟩

/-- `secp256k1_modinv32_divsteps_30`, modinv32_impl.h:179-234 -/
def divsteps30 (zeta : ℤ) (f0 g0 : ℕ) : ℤ × Trans :=
  let s := divsteps30Step^[30] ⟨zeta, f0, g0, 1, 0, 0, 1⟩
  (s.z, trans s)

/-- `secp256k1_modinv32_inv256`, modinv32_impl.h:237-249 -/
def inv256 : List ℕ := [
  0xFF, 0x55, 0x33, 0x49, 0xC7, 0x5D, 0x3B, 0x11, 0x0F, 0xE5, 0xC3, 0x59,
  0xD7, 0xED, 0xCB, 0x21, 0x1F, 0x75, 0x53, 0x69, 0xE7, 0x7D, 0x5B, 0x31,
  0x2F, 0x05, 0xE3, 0x79, 0xF7, 0x0D, 0xEB, 0x41, 0x3F, 0x95, 0x73, 0x89,
  0x07, 0x9D, 0x7B, 0x51, 0x4F, 0x25, 0x03, 0x99, 0x17, 0x2D, 0x0B, 0x61,
  0x5F, 0xB5, 0x93, 0xA9, 0x27, 0xBD, 0x9B, 0x71, 0x6F, 0x45, 0x23, 0xB9,
  0x37, 0x4D, 0x2B, 0x81, 0x7F, 0xD5, 0xB3, 0xC9, 0x47, 0xDD, 0xBB, 0x91,
  0x8F, 0x65, 0x43, 0xD9, 0x57, 0x6D, 0x4B, 0xA1, 0x9F, 0xF5, 0xD3, 0xE9,
  0x67, 0xFD, 0xDB, 0xB1, 0xAF, 0x85, 0x63, 0xF9, 0x77, 0x8D, 0x6B, 0xC1,
  0xBF, 0x15, 0xF3, 0x09, 0x87, 0x1D, 0xFB, 0xD1, 0xCF, 0xA5, 0x83, 0x19,
  0x97, 0xAD, 0x8B, 0xE1, 0xDF, 0x35, 0x13, 0x29, 0xA7, 0x3D, 0x1B, 0xF1,
  0xEF, 0xC5, 0xA3, 0x39, 0xB7, 0xCD, 0xAB, 0x01]

/-- `secp256k1_ctz32_var`, util.h:364-379 (the compiler builtin; `C61` is about the fallback) -/
def ctz32 (x : ℕ) : ℕ := ctzUpTo 32 x

/-- The zero-bit shift at the head of the loop, modinv32_impl.h:269-276: also `i` and `zeros`. -/
def shiftZeros (s : DivVars) (i : ℕ) : Option (DivVars × ℕ × ℕ) :=
  let zeros := ctz32 (s.g ||| u32 ((2 ^ 32 - 1) <<< i))
  if zeros ≤ i then
    (i32? (s.z - zeros)).bind fun eta =>
    some (⟨eta, s.f, s.g >>> zeros, u32 (s.u <<< zeros), u32 (s.v <<< zeros), s.q, s.r⟩,
      i - zeros, zeros)
  else none

/-- `limit` and the mask `m`, modinv32_impl.h:296-299 -/
def limitMask (eta : ℤ) (i : ℕ) : Option ℕ :=
  (i32? (eta + 1)).bind fun e1 =>
  let limit := if e1 > i then (i : ℤ) else e1
  if 0 < limit ∧ limit ≤ 32 then some (((2 ^ 32 - 1) >>> (32 - limit).toNat) &&& 255) else none

/-- The multiplier `w`, a `uint16_t`, that cancels up to eight bits, modinv32_impl.h:301; `none` for an
access outside the table -/
def cancel8 (f g m : ℕ) : Option ℕ :=
  inv256[(f >>> 1) &&& 127]?.bind fun t => some ((u32 (g * t) &&& m) % 2 ^ 16)

/-- Addition of the multiple `w` of `f` to `g`, modinv32_impl.h:303-305 -/
def addMultiple (s : DivVars) (w : ℕ) : DivVars :=
  { s with g := u32 (s.g + u32 (s.f * w)), q := u32 (s.q + u32 (s.u * w)),
           r := u32 (s.r + u32 (s.v * w)) }

/-- Exchange when `eta` is negative, modinv32_impl.h:286-292 -/
def swapNeg (s : DivVars) : Option DivVars :=
  if s.z < 0 then
    (i32? (-s.z)).bind fun eta =>
    some ⟨eta, s.g, u32 (2 ^ 32 - s.f), s.q, s.r, u32 (2 ^ 32 - s.u), u32 (2 ^ 32 - s.v)⟩
  else some s

/-- Loop of `secp256k1_modinv32_divsteps_30_var`, modinv32_impl.h:268-307; the first argument bounds
the number of passes. -/
def divsteps30VarLoop : ℕ → DivVars → ℕ → Option DivVars
  | 0, _, _ => none
  | k + 1, s, i =>
    (shiftZeros s i).bind fun (s, i, _) =>
    if i = 0 then some s
    else
      (swapNeg s).bind fun s =>
      (limitMask s.z i).bind fun m =>
      (cancel8 s.f s.g m).bind fun w =>
      divsteps30VarLoop k (addMultiple s w) i

/-- `secp256k1_modinv32_divsteps_30_var`, modinv32_impl.h:261-319.  Every pass but the first removes
at least one bit, so 31 passes are enough. -/
def divsteps30Var (eta : ℤ) (f0 g0 : ℕ) : Option (ℤ × Trans) :=
  (divsteps30VarLoop 31 ⟨eta, f0, g0, 1, 0, 0, 1⟩ 30).bind fun s => some (s.z, trans s)

/-- Exchange when `eta` is negative, with the change of `jac`, modinv32_impl.h:361-370 -/
def swapPos (s : DivVars) (jac : ℕ) : Option (DivVars × ℕ) :=
  if s.z < 0 then
    (i32? (-s.z)).bind fun eta =>
    some (⟨eta, s.g, s.f, s.q, s.r, s.u, s.v⟩, (jac ^^^ ((s.f &&& s.g) >>> 1)) % 2 ^ 32)
  else some (s, jac)

/-- Loop of `secp256k1_modinv32_posdivsteps_30_var`, modinv32_impl.h:342-385; `jac` is the bit
pattern of an `int`. -/
def posdivsteps30VarLoop : ℕ → DivVars → ℕ → ℕ → Option (DivVars × ℕ)
  | 0, _, _, _ => none
  | k + 1, s, i, jac =>
    (shiftZeros s i).bind fun (s, i, zeros) =>
    let jac := (jac ^^^ (zeros &&& ((s.f >>> 1) ^^^ (s.f >>> 2)))) % 2 ^ 32
    if i = 0 then some (s, jac)
    else
      (swapPos s jac).bind fun (s, jac) =>
      (limitMask s.z i).bind fun m =>
      (cancel8 s.f s.g m).bind fun w =>
      posdivsteps30VarLoop k (addMultiple s w) i jac

/-- `secp256k1_modinv32_posdivsteps_30_var`, modinv32_impl.h:334-399 -/
def posdivsteps30Var (eta : ℤ) (f0 g0 jac : ℕ) : Option (ℤ × Trans × ℕ) :=
  (posdivsteps30VarLoop 31 ⟨eta, f0, g0, 1, 0, 0, 1⟩ 30 jac).bind fun (s, jac) =>
  some (s.z, trans s, jac)

/-- `(int64_t)a * x + (int64_t)b * y`, e.g. modinv32_impl.h:445 -/
def dot2 (a x b y : ℤ) : Option ℤ :=
  (i64? (a * x)).bind fun ax => (i64? (b * y)).bind fun bv => i64? (ax + bv)

/-- `c += (int64_t)a * b`, e.g. modinv32_impl.h:447 -/
def accumMul (c a b : ℤ) : Option ℤ := (i64? (a * b)).bind fun ab => i64? (c + ab)

/-- Loop of one row of `secp256k1_modinv32_update_de_30`, modinv32_impl.h:442-454: the limbs from
index 1 on, with the carry `c`.  Output limb `i - 1` is produced from the input limbs `i`; what remains
is the top limb. -/
def deRowLoop (u v md : ℤ) : List ℤ → List ℤ → List ℤ → ℤ → Option (List ℤ)
  | di :: ds, ei :: es, mi :: ms, c =>
    (dot2 u di v ei).bind fun s =>
    (i64? (c + s)).bind fun c =>
    (accumMul c mi md).bind fun c =>
    (deRowLoop u v md ds es ms (c / 2 ^ 30)).bind fun rest =>
    some (and32 (toI32 c) m30 :: rest)
  | _, _, _, c => some [toI32 c]

/-- One row of `secp256k1_modinv32_update_de_30`, modinv32_impl.h:408-460.  The C code interleaves the
row `(u, v)`, which makes the new `d`, with the row `(q, r)`, which makes the new `e`; both read limb `i`
before either writes limb `i - 1`. -/
def updateDeRow (u v : ℤ) (d e : List ℤ) (M : Modinfo) : Option (List ℤ) :=
  let sd := d.getD 8 0 / 2 ^ 31
  let se := e.getD 8 0 / 2 ^ 31
  (i32? (and32 u sd + and32 v se)).bind fun md =>
  (dot2 u (d.getD 0 0) v (e.getD 0 0)).bind fun c =>
  let md := toI32 (u32 (toU32 md + (2 ^ 32 - (u32 (u32 (M.inv30 * toU32 c) + toU32 md) &&& m30))) : ℕ)
  (accumMul c (M.modulus.getD 0 0) md).bind fun c =>
  deRowLoop u v md (d.drop 1) (e.drop 1) (M.modulus.drop 1) (c / 2 ^ 30)

/-- `secp256k1_modinv32_update_de_30`, modinv32_impl.h:408-460 -/
def updateDe30 (d e : List ℤ) (t : Trans) (M : Modinfo) : Option (List ℤ × List ℤ) :=
  (updateDeRow t.u t.v d e M).bind fun d' =>
  (updateDeRow t.q t.r d e M).bind fun e' => some (d', e')

/-- The loop of one row of `secp256k1_modinv32_update_fg_30_var`, modinv32_impl.h:518-528: the limbs
from index 1 on, with the carry `c` -/
def fgRowLoop (u v : ℤ) : List ℤ → List ℤ → ℤ → Option (List ℤ)
  | fi :: fs, gi :: gs, c =>
    (dot2 u fi v gi).bind fun s =>
    (i64? (c + s)).bind fun c =>
    (fgRowLoop u v fs gs (c / 2 ^ 30)).bind fun rest =>
    some (and32 (toI32 c) m30 :: rest)
  | _, _, c => some [toI32 c]

/-- One row of `secp256k1_modinv32_update_fg_30_var`, modinv32_impl.h:501-529: the new lowest `len`
limbs -/
def fgRow (u v : ℤ) (len : ℕ) (f g : List ℤ) : Option (List ℤ) :=
  (dot2 u (f.getD 0 0) v (g.getD 0 0)).bind fun c =>
  fgRowLoop u v ((f.take len).drop 1) ((g.take len).drop 1) (c / 2 ^ 30)

/-- `secp256k1_modinv32_update_fg_30_var`, modinv32_impl.h:501-529: the limbs from `len` on are not
touched. -/
def updateFg30Var (len : ℕ) (f g : List ℤ) (t : Trans) : Option (List ℤ × List ℤ) :=
  (fgRow t.u t.v len f g).bind fun f' =>
  (fgRow t.q t.r len f g).bind fun g' => some (f' ++ f.drop len, g' ++ g.drop len)

/-- `secp256k1_modinv32_update_fg_30`, modinv32_impl.h:466-493: the same statements for nine limbs -/
def updateFg30 (f g : List ℤ) (t : Trans) : Option (List ℤ × List ℤ) :=
  (fgRow t.u t.v 9 f g).bind fun f' => (fgRow t.q t.r 9 f g).bind fun g' => some (f', g')

/-- Loop of `secp256k1_modinv32`, modinv32_impl.h:542-560: `k` iterations left -/
def modinv32Loop (M : Modinfo) : ℕ → ℤ → List ℤ → List ℤ → List ℤ → List ℤ → Option (List ℤ × List ℤ)
  | 0, _, d, _, f, _ => some (d, f)
  | k + 1, zeta, d, e, f, g =>
    let (zeta, t) := divsteps30 zeta (toU32 (f.getD 0 0)) (toU32 (g.getD 0 0))
    (updateDe30 d e t M).bind fun (d, e) =>
    (updateFg30 f g t).bind fun (f, g) =>
    modinv32Loop M k zeta d e f g

/-- `secp256k1_modinv32`, modinv32_impl.h:532-578 -/
def modinv32 (x : List ℤ) (M : Modinfo) : Option (List ℤ) :=
  (modinv32Loop M 20 (-1) [0, 0, 0, 0, 0, 0, 0, 0, 0] [1, 0, 0, 0, 0, 0, 0, 0, 0] M.modulus x).bind
    fun (d, f) => normalize30 d (f.getD 8 0) M

/-- `cond |= v[j]` for the limbs from 1 to `len - 1`, modinv32_impl.h:611-615 -/
def orLimbs (len : ℕ) (v : List ℤ) : ℤ := ((v.take len).drop 1).foldl or32 0

/-- The test for a shorter representation, modinv32_impl.h:621-625 -/
def shrinkCond (len : ℕ) (fn gn : ℤ) : ℤ :=
  or32 (or32 (((len : ℤ) - 2) / 2 ^ 31) (xor32 fn (fn / 2 ^ 31))) (xor32 gn (gn / 2 ^ 31))

/-- `v[len - 2] |= (uint32_t)fn << 30`, modinv32_impl.h:628-629 -/
def mergeTop (len : ℕ) (v : List ℤ) (fn : ℤ) : List ℤ :=
  v.set (len - 2) (or32 (v.getD (len - 2) 0) (toI32 (u32 (toU32 fn <<< 30) : ℕ)))

/-- Loop of `secp256k1_modinv32_var`, modinv32_impl.h:595-638; the first argument bounds the number
of iterations of the `while (1)`.  Also returned: `f.v[len - 1]`. -/
def modinv32VarLoop (M : Modinfo) :
    ℕ → ℕ → ℤ → List ℤ → List ℤ → List ℤ → List ℤ → Option (List ℤ × ℤ)
  | 0, _, _, _, _, _, _ => none
  | k + 1, len, eta, d, e, f, g =>
    (divsteps30Var eta (toU32 (f.getD 0 0)) (toU32 (g.getD 0 0))).bind fun (eta, t) =>
    (updateDe30 d e t M).bind fun (d, e) =>
    (updateFg30Var len f g t).bind fun (f, g) =>
    if g.getD 0 0 = 0 ∧ orLimbs len g = 0 then some (d, f.getD (len - 1) 0)
    else
      let fn := f.getD (len - 1) 0
      let gn := g.getD (len - 1) 0
      if shrinkCond len fn gn = 0 then
        modinv32VarLoop M k (len - 1) eta d e (mergeTop len f fn) (mergeTop len g gn)
      else modinv32VarLoop M k len eta d e f g

/-- `secp256k1_modinv32_var`, modinv32_impl.h:581-655, with at most `fuel` iterations of its
unbounded loop -/
def modinv32Var (fuel : ℕ) (x : List ℤ) (M : Modinfo) : Option (List ℤ) :=
  (modinv32VarLoop M fuel 9 (-1) [0, 0, 0, 0, 0, 0, 0, 0, 0] [1, 0, 0, 0, 0, 0, 0, 0, 0]
    M.modulus x).bind fun (d, top) => normalize30 d top M

/-- The argument `v[0] | ((uint32_t)v[1] << 30)`, modinv32_impl.h:687 -/
def low32 (v : List ℤ) : ℕ := toU32 (v.getD 0 0) ||| u32 (toU32 (v.getD 1 0) <<< 30)

/-- Loop of `secp256k1_jacobi32_maybe_var`, modinv32_impl.h:684-719: `k` iterations left -/
def jacobi32Loop : ℕ → ℕ → ℤ → ℕ → List ℤ → List ℤ → Option ℤ
  | 0, _, _, _, _, _ => some 0
  | k + 1, len, eta, jac, f, g =>
    (posdivsteps30Var eta (low32 f) (low32 g) jac).bind fun (eta, t, jac) =>
    (updateFg30Var len f g t).bind fun (f, g) =>
    if f.getD 0 0 = 1 ∧ orLimbs len f = 0 then some (1 - 2 * ((jac &&& 1 : ℕ) : ℤ))
    else
      let fn := f.getD (len - 1) 0
      let gn := g.getD (len - 1) 0
      if or32 (or32 (((len : ℤ) - 2) / 2 ^ 31) fn) gn = 0 then jacobi32Loop k (len - 1) eta jac f g
      else jacobi32Loop k len eta jac f g

/-- `secp256k1_jacobi32_maybe_var`, modinv32_impl.h:666-723 (`JACOBI32_ITERATIONS` is 50) -/
def jacobi32MaybeVar (x : List ℤ) (M : Modinfo) : Option ℤ :=
  jacobi32Loop 50 9 (-1) 0 M.modulus x

end Secp.Model.M32

namespace Secp.Model
open M32

/-! ### Field elements -/

/-- `secp256k1_fe_from_signed30`, field_10x26_impl.h:1137-1165 -/
def Fe10.fromSigned30 (a : List ℤ) : Fe10 :=
  let v := fun i => toU32 (a.getD i 0)
  ⟨v 0 &&& m26,
   (v 0 >>> 26 ||| u32 (v 1 <<< 4)) &&& m26,
   (v 1 >>> 22 ||| u32 (v 2 <<< 8)) &&& m26,
   (v 2 >>> 18 ||| u32 (v 3 <<< 12)) &&& m26,
   (v 3 >>> 14 ||| u32 (v 4 <<< 16)) &&& m26,
   (v 4 >>> 10 ||| u32 (v 5 <<< 20)) &&& m26,
   (v 5 >>> 6 ||| u32 (v 6 <<< 24)) &&& m26,
   (v 6 >>> 2) &&& m26,
   (v 6 >>> 28 ||| u32 (v 7 <<< 2)) &&& m26,
   v 7 >>> 24 ||| u32 (v 8 <<< 6)⟩

/-- `secp256k1_fe_to_signed30`, field_10x26_impl.h:1167-1182; the limbs are widened to 64 bits first. -/
def Fe10.toSigned30 (a : Fe10) : List ℤ :=
  [((a.n0 ||| u64 (a.n1 <<< 26)) &&& m30 : ℕ),
   ((a.n1 >>> 4 ||| u64 (a.n2 <<< 22)) &&& m30 : ℕ),
   ((a.n2 >>> 8 ||| u64 (a.n3 <<< 18)) &&& m30 : ℕ),
   ((a.n3 >>> 12 ||| u64 (a.n4 <<< 14)) &&& m30 : ℕ),
   ((a.n4 >>> 16 ||| u64 (a.n5 <<< 10)) &&& m30 : ℕ),
   ((a.n5 >>> 20 ||| u64 (a.n6 <<< 6)) &&& m30 : ℕ),
   ((a.n6 >>> 24 ||| u64 (a.n7 <<< 2) ||| u64 (a.n8 <<< 28)) &&& m30 : ℕ),
   ((a.n8 >>> 2 ||| u64 (a.n9 <<< 24)) &&& m30 : ℕ),
   toI32 (a.n9 >>> 6 : ℕ)]

/-- `secp256k1_const_modinfo_fe`, field_10x26_impl.h:1184-1187 -/
def M32.modinfoFe : M32.Modinfo := ⟨[-0x3D1, -4, 0, 0, 0, 0, 0, 0, 65536], 0x2DDACACF⟩

/-- `secp256k1_fe_impl_inv`, field_10x26_impl.h:1189-1197 -/
def Fe10.inv? (x : Fe10) : Option Fe10 :=
  (modinv32 (Fe10.toSigned30 (Fe10.normalize x)) M32.modinfoFe).bind fun s =>
  some (Fe10.fromSigned30 s)

/-- `secp256k1_fe_impl_inv_var`, field_10x26_impl.h:1199-1207 -/
def Fe10.invVar? (fuel : ℕ) (x : Fe10) : Option Fe10 :=
  (modinv32Var fuel (Fe10.toSigned30 (Fe10.normalizeVar x)) M32.modinfoFe).bind fun s =>
  some (Fe10.fromSigned30 s)

/-- The inversion routines, a parameter of the limb interface: `secp256k1_fe_impl_inv` and
`secp256k1_fe_impl_inv_var`, field_10x26_impl.h:1189-1207. -/
class Fe10.LimbInv where
  inv : Fe10 → Fe10
  invVar : Fe10 → Fe10

/-- The interface of `field.h` on the limbs of field_10x26.h.  The flag of `cmov` is a truth value, as
`field.h:318` requires. -/
instance Fe10.instFeOpsFe10 [Fe10.LimbInv] : FeOps Fe10 where
  setInt := Fe10.setInt
  normalizeWeak := Fe10.normalizeWeak
  normalize := Fe10.normalize
  normalizesToZero := Fe10.normalizesToZero
  negate := Fe10.negate
  addInt := Fe10.addInt
  mulInt := Fe10.mulInt
  add := Fe10.add
  mul := Fe10.mul
  sqr := Fe10.sqr
  half := Fe10.half
  cmov r a flag := Fe10.cmov r a (if flag then 1 else 0)
  inv := Fe10.LimbInv.inv
  invVar := Fe10.LimbInv.invVar
  feConst := Fe10.feConst
  ofStorage x := Fe10.fromStorage (Fe10.storageConst x)

/-- `secp256k1_fe_impl_is_square_var`, field_10x26_impl.h:1209-1230. -/
def Fe10.isSquareVar? [Fe10.LimbInv] (x : Fe10) : Option Bool :=
  let tmp := Fe10.normalizeVar x
  if Fe10.isZero tmp then some true
  else
    (jacobi32MaybeVar (Fe10.toSigned30 tmp) M32.modinfoFe).bind fun jac =>
    if jac = 0 then some (FeOps.sqrt tmp).2 else some (decide (jac ≥ 0))

/-! ### Scalars -/

/-- `secp256k1_scalar_from_signed30`, scalar_8x32_impl.h:729-756 -/
def Sc8.fromSigned30 (a : List ℤ) : Sc8 :=
  let v := fun i => toU32 (a.getD i 0)
  ⟨v 0 ||| u32 (v 1 <<< 30), v 1 >>> 2 ||| u32 (v 2 <<< 28), v 2 >>> 4 ||| u32 (v 3 <<< 26),
   v 3 >>> 6 ||| u32 (v 4 <<< 24), v 4 >>> 8 ||| u32 (v 5 <<< 22), v 5 >>> 10 ||| u32 (v 6 <<< 20),
   v 6 >>> 12 ||| u32 (v 7 <<< 18), v 7 >>> 14 ||| u32 (v 8 <<< 16)⟩

/-- `secp256k1_scalar_to_signed30`, scalar_8x32_impl.h:758-773 -/
def Sc8.toSigned30 (a : Sc8) : List ℤ :=
  [(a.d0 &&& m30 : ℕ),
   ((a.d0 >>> 30 ||| u32 (a.d1 <<< 2)) &&& m30 : ℕ),
   ((a.d1 >>> 28 ||| u32 (a.d2 <<< 4)) &&& m30 : ℕ),
   ((a.d2 >>> 26 ||| u32 (a.d3 <<< 6)) &&& m30 : ℕ),
   ((a.d3 >>> 24 ||| u32 (a.d4 <<< 8)) &&& m30 : ℕ),
   ((a.d4 >>> 22 ||| u32 (a.d5 <<< 10)) &&& m30 : ℕ),
   ((a.d5 >>> 20 ||| u32 (a.d6 <<< 12)) &&& m30 : ℕ),
   ((a.d6 >>> 18 ||| u32 (a.d7 <<< 14)) &&& m30 : ℕ),
   (a.d7 >>> 16 : ℕ)]

/-- `secp256k1_const_modinfo_scalar`, scalar_8x32_impl.h:775-778 -/
def M32.modinfoScalar : M32.Modinfo :=
  ⟨[0x10364141, 0x3F497A33, 0x348A03BB, 0x2BB739AB, -0x146, 0, 0, 0, 65536], 0x2A774EC1⟩

/-- `secp256k1_scalar_inverse`, scalar_8x32_impl.h:780-793 -/
def Sc8.inverse? (x : Sc8) : Option Sc8 :=
  (modinv32 (Sc8.toSigned30 x) M32.modinfoScalar).bind fun s => some (Sc8.fromSigned30 s)

/-- `secp256k1_scalar_inverse_var`, scalar_8x32_impl.h:795-808 -/
def Sc8.inverseVar? (fuel : ℕ) (x : Sc8) : Option Sc8 :=
  (modinv32Var fuel (Sc8.toSigned30 x) M32.modinfoScalar).bind fun s => some (Sc8.fromSigned30 s)

end Secp.Model
