import Verif.Model.Scalar4x64

/-!
# Model of the safegcd modular inversion

`/repo/src/modinv64.h`, `/repo/src/modinv64_impl.h`, the signed part of
`/repo/src/int128_native_impl.h`, and the callers in `/repo/src/field_5x52_impl.h` and
`/repo/src/scalar_4x64_impl.h`.

Unsigned words are natural numbers, reduced explicitly where the machine reduces them.  An `int64_t`
is an integer.  Signed arithmetic goes through the checked operations `i32?`, `i64?`, `i128?`: an
overflow, or a shift by an impossible amount, makes the whole function return `none`, which stands
for undefined behaviour.  Right shifts of negative numbers are arithmetic and conversions to signed
types wrap, as `/repo/src/assumptions.h:28-73` checks.  `volatile` copies and `VERIFY_CHECK`s are not
modelled.
-/

namespace Secp.Model

/-- Signed 32-bit arithmetic -/
def i32? (x : ℤ) : Option ℤ := if -2 ^ 31 ≤ x ∧ x < 2 ^ 31 then some x else none
/-- Signed 64-bit arithmetic -/
def i64? (x : ℤ) : Option ℤ := if -2 ^ 63 ≤ x ∧ x < 2 ^ 63 then some x else none
/-- Signed 128-bit arithmetic -/
def i128? (x : ℤ) : Option ℤ := if -2 ^ 127 ≤ x ∧ x < 2 ^ 127 then some x else none

/-- Conversion of a signed value to `uint64_t` -/
def toU64 (x : ℤ) : ℕ := (x % 2 ^ 64).toNat
/-- Conversion to `int64_t` -/
def toI64 (x : ℤ) : ℤ := (x + 2 ^ 63) % 2 ^ 64 - 2 ^ 63
/-- Conversion to `int` -/
def toI32 (x : ℤ) : ℤ := (x + 2 ^ 31) % 2 ^ 32 - 2 ^ 31

/-- `a & b` on `int64_t` -/
def and64 (a b : ℤ) : ℤ := toI64 (toU64 a &&& toU64 b : ℕ)
/-- `a | b` on `int64_t` -/
def or64 (a b : ℤ) : ℤ := toI64 (toU64 a ||| toU64 b : ℕ)
/-- `a ^ b` on `int64_t` -/
def xor64 (a b : ℤ) : ℤ := toI64 (toU64 a ^^^ toU64 b : ℕ)

/-- `secp256k1_i128_mul`, int128_native_impl.h:49-51 -/
def i128Mul (a b : ℤ) : Option ℤ := i128? (a * b)
/-- `secp256k1_i128_accum_mul`, int128_native_impl.h:53-57 -/
def i128AccumMul (r a b : ℤ) : Option ℤ := (i128? (a * b)).bind fun ab => i128? (r + ab)
/-- `secp256k1_i128_rshift`, int128_native_impl.h:66-69, by 62 -/
def i128Rshift62 (r : ℤ) : ℤ := r / 2 ^ 62
/-- `secp256k1_i128_to_u64`, int128_native_impl.h:71-73 -/
def i128ToU64 (r : ℤ) : ℕ := toU64 r
/-- `secp256k1_i128_to_i64`, int128_native_impl.h:75-78 -/
def i128ToI64 (r : ℤ) : ℤ := toI64 r

/-- `UINT64_MAX >> 2` -/
def m62 : ℕ := 2 ^ 62 - 1

/-- `secp256k1_modinv64_signed62`, modinv64.h:20-22 -/
structure S62 where
  v0 : ℤ
  v1 : ℤ
  v2 : ℤ
  v3 : ℤ
  v4 : ℤ
deriving DecidableEq, Repr

/-- `secp256k1_modinv64_modinfo`, modinv64.h:24-30 -/
structure Modinfo where
  modulus : S62
  inv62 : ℕ

/-- `secp256k1_modinv64_trans2x2`, modinv64_impl.h:25-27 -/
structure Trans where
  u : ℤ
  v : ℤ
  q : ℤ
  r : ℤ
deriving DecidableEq, Repr

/-- First addition of the modulus and conditional negation of one limb,
`secp256k1_modinv64_normalize_62`, modinv64_impl.h:109-120 -/
def normLimb (r m condAdd condNegate : ℤ) : Option ℤ :=
  (i64? (r + and64 m condAdd)).bind fun r => i64? (xor64 r condNegate - condNegate)

/-- Propagation of the top bits, modinv64_impl.h:122-125 and 136-139 -/
def normCarry (r : S62) : Option S62 :=
  (i64? (r.v1 + r.v0 / 2 ^ 62)).bind fun r1 =>
  (i64? (r.v2 + r1 / 2 ^ 62)).bind fun r2 =>
  (i64? (r.v3 + r2 / 2 ^ 62)).bind fun r3 =>
  (i64? (r.v4 + r3 / 2 ^ 62)).bind fun r4 =>
  some ⟨and64 r.v0 m62, and64 r1 m62, and64 r2 m62, and64 r3 m62, r4⟩

/-- `secp256k1_modinv64_normalize_62`, modinv64_impl.h:88-154 -/
def normalize62 (r : S62) (sign : ℤ) (M : Modinfo) : Option S62 :=
  let condAdd := r.v4 / 2 ^ 63
  let condNegate := sign / 2 ^ 63
  (normLimb r.v0 M.modulus.v0 condAdd condNegate).bind fun r0 =>
  (normLimb r.v1 M.modulus.v1 condAdd condNegate).bind fun r1 =>
  (normLimb r.v2 M.modulus.v2 condAdd condNegate).bind fun r2 =>
  (normLimb r.v3 M.modulus.v3 condAdd condNegate).bind fun r3 =>
  (normLimb r.v4 M.modulus.v4 condAdd condNegate).bind fun r4 =>
  (normCarry ⟨r0, r1, r2, r3, r4⟩).bind fun r =>
  let condAdd := r.v4 / 2 ^ 63
  (i64? (r.v0 + and64 M.modulus.v0 condAdd)).bind fun r0 =>
  (i64? (r.v1 + and64 M.modulus.v1 condAdd)).bind fun r1 =>
  (i64? (r.v2 + and64 M.modulus.v2 condAdd)).bind fun r2 =>
  (i64? (r.v3 + and64 M.modulus.v3 condAdd)).bind fun r3 =>
  (i64? (r.v4 + and64 M.modulus.v4 condAdd)).bind fun r4 =>
  normCarry ⟨r0, r1, r2, r3, r4⟩

/-- Local variables of `secp256k1_modinv64_divsteps_59` (modinv64_impl.h:175-177) and of the
variable-time loops (modinv64_impl.h:241-242); `z` is `zeta` respectively `eta`. -/
structure DivVars where
  z : ℤ
  f : ℕ
  g : ℕ
  u : ℕ
  v : ℕ
  q : ℕ
  r : ℕ
deriving DecidableEq, Repr

/-- The matrix handed back: `(int64_t)u` etc., modinv64_impl.h:213-216 and 298-301 -/
def DivVars.trans (s : DivVars) : Trans := ⟨toI64 s.u, toI64 s.v, toI64 s.q, toI64 s.r⟩

/-- Body of the loop of `secp256k1_modinv64_divsteps_59`, modinv64_impl.h:184-208 -/
def divsteps59Step (s : DivVars) : DivVars :=
  let mask1 := toU64 (s.z / 2 ^ 63)
  let mask2 := u64 (2 ^ 64 - (s.g &&& 1))
  let x := u64 ((s.f ^^^ mask1) + (2 ^ 64 - mask1))
  let y := u64 ((s.u ^^^ mask1) + (2 ^ 64 - mask1))
  let z := u64 ((s.v ^^^ mask1) + (2 ^ 64 - mask1))
  let g := u64 (s.g + (x &&& mask2))
  let q := u64 (s.q + (y &&& mask2))
  let r := u64 (s.r + (z &&& mask2))
  let mask1 := mask1 &&& mask2
  let zeta := toI64 (u64 ((toU64 s.z ^^^ mask1) + (2 ^ 64 - 1)) : ℕ)
  let f := u64 (s.f + (g &&& mask1))
  let u := u64 (s.u + (q &&& mask1))
  let v := u64 (s.v + (r &&& mask1))
  ⟨zeta, f, g >>> 1, u64 (u <<< 1), u64 (v <<< 1), q, r⟩

/-- `secp256k1_modinv64_divsteps_59`, modinv64_impl.h:167-227 -/
def divsteps59 (zeta : ℤ) (f0 g0 : ℕ) : ℤ × Trans :=
  let s := divsteps59Step^[59] ⟨zeta, f0, g0, 8, 0, 0, 8⟩
  (s.z, s.trans)

/-- `secp256k1_ctz64_var`, util.h:382-397 (the compiler builtin): the number of trailing zero bits of
a nonzero word.  `k` bounds the search. -/
def ctzUpTo : ℕ → ℕ → ℕ
  | 0, _ => 0
  | k + 1, x => if x % 2 = 1 then 0 else ctzUpTo k (x / 2) + 1

/-- `secp256k1_ctz64_var`, util.h:382-397 -/
def ctz64 (x : ℕ) : ℕ := ctzUpTo 64 x

/-- The zero-bit shift at the head of the loop, modinv64_impl.h:247-253: also `i` and `zeros`. -/
def shiftZeros (s : DivVars) (i : ℕ) : Option (DivVars × ℕ × ℕ) :=
  let zeros := ctz64 (s.g ||| u64 ((2 ^ 64 - 1) <<< i))
  if zeros ≤ i then
    (i64? (s.z - zeros)).bind fun eta =>
    some (⟨eta, s.f, s.g >>> zeros, u64 (s.u <<< zeros), u64 (s.v <<< zeros), s.q, s.r⟩,
      i - zeros, zeros)
  else none

/-- `limit` and the mask `m`, modinv64_impl.h:273-276 and 283-286: `top` is 63 or 15. -/
def limitMask (eta : ℤ) (i top : ℕ) : Option ℕ :=
  (i32? (toI32 eta + 1)).bind fun e1 =>
  let limit := if e1 > i then (i : ℤ) else e1
  if 0 < limit ∧ limit ≤ 64 then some (((2 ^ 64 - 1) >>> (64 - limit).toNat) &&& top) else none

/-- Addition of the multiple `w` of `f` to `g`, modinv64_impl.h:292-294 -/
def addMultiple (s : DivVars) (w : ℕ) : DivVars :=
  { s with g := u64 (s.g + u64 (s.f * w)), q := u64 (s.q + u64 (s.u * w)),
           r := u64 (s.r + u64 (s.v * w)) }

/-- The multiplier that cancels up to six bits, modinv64_impl.h:279 -/
def cancel6 (f g m : ℕ) : ℕ := u64 (u64 (f * g) * u64 (f * f + (2 ^ 64 - 2))) &&& m

/-- The multiplier that cancels up to four bits, modinv64_impl.h:289-290; `w` is a `uint32_t`. -/
def cancel4 (f g m : ℕ) : ℕ :=
  let w := (f + ((u64 (f + 1) &&& 4) <<< 1)) % 2 ^ 32
  u64 ((2 ^ 32 - w) % 2 ^ 32 * g) &&& m

/-- Loop of `secp256k1_modinv64_divsteps_62_var`, modinv64_impl.h:246-296; the first argument bounds
the number of passes. -/
def divsteps62VarLoop : ℕ → DivVars → ℕ → Option DivVars
  | 0, _, _ => none
  | k + 1, s, i =>
    (shiftZeros s i).bind fun (s, i, _) =>
    if i = 0 then some s
    else if s.z < 0 then
      (i64? (-s.z)).bind fun eta =>
      let s' : DivVars := ⟨eta, s.g, u64 (2 ^ 64 - s.f), s.q, s.r, u64 (2 ^ 64 - s.u), u64 (2 ^ 64 - s.v)⟩
      (limitMask eta i 63).bind fun m =>
      divsteps62VarLoop k (addMultiple s' (cancel6 s'.f s'.g m)) i
    else
      (limitMask s.z i 15).bind fun m =>
      divsteps62VarLoop k (addMultiple s (cancel4 s.f s.g m)) i

/-- `secp256k1_modinv64_divsteps_62_var`, modinv64_impl.h:239-310.  Every pass but the first removes
at least one bit, so 63 passes are enough. -/
def divsteps62Var (eta : ℤ) (f0 g0 : ℕ) : Option (ℤ × Trans) :=
  (divsteps62VarLoop 63 ⟨eta, f0, g0, 1, 0, 0, 1⟩ 62).bind fun s => some (s.z, s.trans)

/-- Loop of `secp256k1_modinv64_posdivsteps_62_var`, modinv64_impl.h:333-387; `jac` is the bit
pattern of an `int`. -/
def posdivsteps62VarLoop : ℕ → DivVars → ℕ → ℕ → Option (DivVars × ℕ)
  | 0, _, _, _ => none
  | k + 1, s, i, jac =>
    (shiftZeros s i).bind fun (s, i, zeros) =>
    let jac := (jac ^^^ (zeros &&& ((s.f >>> 1) ^^^ (s.f >>> 2)))) % 2 ^ 32
    if i = 0 then some (s, jac)
    else if s.z < 0 then
      (i64? (-s.z)).bind fun eta =>
      let s' : DivVars := ⟨eta, s.g, s.f, s.q, s.r, s.u, s.v⟩
      let jac := (jac ^^^ ((s'.f &&& s'.g) >>> 1)) % 2 ^ 32
      (limitMask eta i 63).bind fun m =>
      posdivsteps62VarLoop k (addMultiple s' (cancel6 s'.f s'.g m)) i jac
    else
      (limitMask s.z i 15).bind fun m =>
      posdivsteps62VarLoop k (addMultiple s (cancel4 s.f s.g m)) i jac

/-- `secp256k1_modinv64_posdivsteps_62_var`, modinv64_impl.h:325-402 -/
def posdivsteps62Var (eta : ℤ) (f0 g0 jac : ℕ) : Option (ℤ × Trans × ℕ) :=
  (posdivsteps62VarLoop 63 ⟨eta, f0, g0, 1, 0, 0, 1⟩ 62 jac).bind fun (s, jac) =>
  some (s.z, s.trans, jac)

/-- `c + a x + b y` on a 128-bit accumulator: two calls of `secp256k1_i128_accum_mul`, e.g.
modinv64_impl.h:515-516 -/
def accum2 (c a x b y : ℤ) : Option ℤ :=
  (i128AccumMul c a x).bind fun c => i128AccumMul c b y

/-- Addition of a limb of the modulus unless it is zero, e.g. modinv64_impl.h:449-452 -/
def accumMod (c m md : ℤ) : Option ℤ := if m ≠ 0 then i128AccumMul c m md else some c

/-- One row of `secp256k1_modinv64_update_de_62`, modinv64_impl.h:411-494.  The C code interleaves the
row `(u, v)`, which makes the new `d`, with the row `(q, r)`, which makes the new `e`; the two do not
interact. -/
def updateDeRow (u v : ℤ) (d e : S62) (M : Modinfo) : Option S62 :=
  let sd := d.v4 / 2 ^ 63
  let se := e.v4 / 2 ^ 63
  (i64? (and64 u sd + and64 v se)).bind fun md =>
  (i128Mul u d.v0).bind fun c =>
  (i128AccumMul c v e.v0).bind fun c =>
  let md := toI64 (u64 (toU64 md + (2 ^ 64 - (u64 (u64 (M.inv62 * i128ToU64 c) + toU64 md) &&& m62))) : ℕ)
  (i128AccumMul c M.modulus.v0 md).bind fun c =>
  let c := i128Rshift62 c
  (accum2 c u d.v1 v e.v1).bind fun c =>
  (accumMod c M.modulus.v1 md).bind fun c =>
  let o0 := i128ToU64 c &&& m62
  let c := i128Rshift62 c
  (accum2 c u d.v2 v e.v2).bind fun c =>
  (accumMod c M.modulus.v2 md).bind fun c =>
  let o1 := i128ToU64 c &&& m62
  let c := i128Rshift62 c
  (accum2 c u d.v3 v e.v3).bind fun c =>
  (accumMod c M.modulus.v3 md).bind fun c =>
  let o2 := i128ToU64 c &&& m62
  let c := i128Rshift62 c
  (accum2 c u d.v4 v e.v4).bind fun c =>
  (i128AccumMul c M.modulus.v4 md).bind fun c =>
  let o3 := i128ToU64 c &&& m62
  let c := i128Rshift62 c
  some ⟨o0, o1, o2, o3, i128ToI64 c⟩

/-- `secp256k1_modinv64_update_de_62`, modinv64_impl.h:411-494 -/
def updateDe62 (d e : S62) (t : Trans) (M : Modinfo) : Option (S62 × S62) :=
  (updateDeRow t.u t.v d e M).bind fun d' =>
  (updateDeRow t.q t.r d e M).bind fun e' => some (d', e')

/-- One row of `secp256k1_modinv64_update_fg_62`, modinv64_impl.h:500-545; the C code interleaves the
two rows, which do not interact. -/
def updateFgRow (u v : ℤ) (f g : S62) : Option S62 :=
  (i128Mul u f.v0).bind fun c =>
  (i128AccumMul c v g.v0).bind fun c =>
  let c := i128Rshift62 c
  (accum2 c u f.v1 v g.v1).bind fun c =>
  let o0 := i128ToU64 c &&& m62
  let c := i128Rshift62 c
  (accum2 c u f.v2 v g.v2).bind fun c =>
  let o1 := i128ToU64 c &&& m62
  let c := i128Rshift62 c
  (accum2 c u f.v3 v g.v3).bind fun c =>
  let o2 := i128ToU64 c &&& m62
  let c := i128Rshift62 c
  (accum2 c u f.v4 v g.v4).bind fun c =>
  let o3 := i128ToU64 c &&& m62
  let c := i128Rshift62 c
  some ⟨o0, o1, o2, o3, i128ToI64 c⟩

/-- `secp256k1_modinv64_update_fg_62`, modinv64_impl.h:500-545 -/
def updateFg62 (f g : S62) (t : Trans) : Option (S62 × S62) :=
  (updateFgRow t.u t.v f g).bind fun f' =>
  (updateFgRow t.q t.r f g).bind fun g' => some (f', g')

/-- The loop of one row of `secp256k1_modinv64_update_fg_62_var`, modinv64_impl.h:572-584: the limbs
from index 1 on, with the carry `c`.  Output limb `i - 1` is produced from input limb `i`; what
remains is the top limb. -/
def fgVarRowLoop (u v : ℤ) : List ℤ → List ℤ → ℤ → Option (List ℤ)
  | fi :: fs, gi :: gs, c =>
    (accum2 c u fi v gi).bind fun c =>
    (fgVarRowLoop u v fs gs (i128Rshift62 c)).bind fun rest =>
    some (((i128ToU64 c &&& m62 : ℕ) : ℤ) :: rest)
  | _, _, c => some [i128ToI64 c]

/-- One row of `secp256k1_modinv64_update_fg_62_var`, modinv64_impl.h:553-585: the new lowest `len`
limbs. -/
def fgVarRow (u v : ℤ) (len : ℕ) (f g : List ℤ) : Option (List ℤ) :=
  (i128Mul u (f.getD 0 0)).bind fun c =>
  (i128AccumMul c v (g.getD 0 0)).bind fun c =>
  fgVarRowLoop u v ((f.take len).drop 1) ((g.take len).drop 1) (i128Rshift62 c)

/-- `secp256k1_modinv64_update_fg_62_var`, modinv64_impl.h:553-585: the limbs from `len` on are not
touched. -/
def updateFg62Var (len : ℕ) (f g : List ℤ) (t : Trans) : Option (List ℤ × List ℤ) :=
  (fgVarRow t.u t.v len f g).bind fun f' =>
  (fgVarRow t.q t.r len f g).bind fun g' => some (f' ++ f.drop len, g' ++ g.drop len)

/-- Loop of `secp256k1_modinv64`, modinv64_impl.h:598-616: `k` iterations left -/
def modinv64Loop (M : Modinfo) : ℕ → ℤ → S62 → S62 → S62 → S62 → Option (S62 × S62)
  | 0, _, d, _, f, _ => some (d, f)
  | k + 1, zeta, d, e, f, g =>
    let (zeta, t) := divsteps59 zeta (toU64 f.v0) (toU64 g.v0)
    (updateDe62 d e t M).bind fun (d, e) =>
    (updateFg62 f g t).bind fun (f, g) =>
    modinv64Loop M k zeta d e f g

/-- `secp256k1_modinv64`, modinv64_impl.h:588-634 -/
def modinv64 (x : S62) (M : Modinfo) : Option S62 :=
  (modinv64Loop M 10 (-1) ⟨0, 0, 0, 0, 0⟩ ⟨1, 0, 0, 0, 0⟩ M.modulus x).bind fun (d, f) =>
  normalize62 d f.v4 M

/-- `cond |= v[j]` for the limbs from 1 to `len - 1`, modinv64_impl.h:666-670 -/
def orLimbs (len : ℕ) (v : List ℤ) : ℤ := ((v.take len).drop 1).foldl or64 0

/-- The test for a shorter representation, modinv64_impl.h:675-680 -/
def shrinkCond (len : ℕ) (fn gn : ℤ) : ℤ :=
  or64 (or64 (((len : ℤ) - 2) / 2 ^ 63) (xor64 fn (fn / 2 ^ 63))) (xor64 gn (gn / 2 ^ 63))

/-- `v[len - 2] |= (uint64_t)fn << 62`, modinv64_impl.h:683-684 -/
def mergeTop (len : ℕ) (v : List ℤ) (fn : ℤ) : List ℤ :=
  v.set (len - 2) (or64 (v.getD (len - 2) 0) (toI64 (u64 (toU64 fn <<< 62) : ℕ)))

/-- Loop of `secp256k1_modinv64_var`, modinv64_impl.h:651-693; the first argument bounds the number
of iterations of the `while (1)`.  Also returned: `f.v[len - 1]`. -/
def modinv64VarLoop (M : Modinfo) : ℕ → ℕ → ℤ → S62 → S62 → List ℤ → List ℤ → Option (S62 × ℤ)
  | 0, _, _, _, _, _, _ => none
  | k + 1, len, eta, d, e, f, g =>
    (divsteps62Var eta (toU64 (f.getD 0 0)) (toU64 (g.getD 0 0))).bind fun (eta, t) =>
    (updateDe62 d e t M).bind fun (d, e) =>
    (updateFg62Var len f g t).bind fun (f, g) =>
    if g.getD 0 0 = 0 ∧ orLimbs len g = 0 then some (d, f.getD (len - 1) 0)
    else
      let fn := f.getD (len - 1) 0
      let gn := g.getD (len - 1) 0
      if shrinkCond len fn gn = 0 then
        modinv64VarLoop M k (len - 1) eta d e (mergeTop len f fn) (mergeTop len g gn)
      else modinv64VarLoop M k len eta d e f g

/-- The limbs as an array -/
def S62.toList (x : S62) : List ℤ := [x.v0, x.v1, x.v2, x.v3, x.v4]

/-- `secp256k1_modinv64_var`, modinv64_impl.h:637-710, with at most `fuel` iterations of its
unbounded loop -/
def modinv64Var (fuel : ℕ) (x : S62) (M : Modinfo) : Option S62 :=
  (modinv64VarLoop M fuel 5 (-1) ⟨0, 0, 0, 0, 0⟩ ⟨1, 0, 0, 0, 0⟩ M.modulus.toList x.toList).bind
    fun (d, top) => normalize62 d top M

/-- The argument `v[0] | ((uint64_t)v[1] << 62)`, modinv64_impl.h:742 -/
def low64 (v : List ℤ) : ℕ := toU64 (v.getD 0 0) ||| u64 (toU64 (v.getD 1 0) <<< 62)

/-- Loop of `secp256k1_jacobi64_maybe_var`, modinv64_impl.h:739-774: `k` iterations left -/
def jacobi64Loop : ℕ → ℕ → ℤ → ℕ → List ℤ → List ℤ → Option ℤ
  | 0, _, _, _, _, _ => some 0
  | k + 1, len, eta, jac, f, g =>
    (posdivsteps62Var eta (low64 f) (low64 g) jac).bind fun (eta, t, jac) =>
    (updateFg62Var len f g t).bind fun (f, g) =>
    if f.getD 0 0 = 1 ∧ orLimbs len f = 0 then some (1 - 2 * ((jac &&& 1 : ℕ) : ℤ))
    else
      let fn := f.getD (len - 1) 0
      let gn := g.getD (len - 1) 0
      if or64 (or64 (((len : ℤ) - 2) / 2 ^ 63) fn) gn = 0 then jacobi64Loop k (len - 1) eta jac f g
      else jacobi64Loop k len eta jac f g

/-- `secp256k1_jacobi64_maybe_var`, modinv64_impl.h:721-778 (`JACOBI64_ITERATIONS` is 25) -/
def jacobi64MaybeVar (x : S62) (M : Modinfo) : Option ℤ :=
  jacobi64Loop 25 5 (-1) 0 M.modulus.toList x.toList

/-! ### Field elements -/

/-- `secp256k1_fe_from_signed62`, field_5x52_impl.h:443-461 -/
def Fe5.fromSigned62 (a : S62) : Fe5 :=
  let a0 := toU64 a.v0
  let a1 := toU64 a.v1
  let a2 := toU64 a.v2
  let a3 := toU64 a.v3
  let a4 := toU64 a.v4
  ⟨a0 &&& m52,
   (a0 >>> 52 ||| u64 (a1 <<< 10)) &&& m52,
   (a1 >>> 42 ||| u64 (a2 <<< 20)) &&& m52,
   (a2 >>> 32 ||| u64 (a3 <<< 30)) &&& m52,
   a3 >>> 22 ||| u64 (a4 <<< 40)⟩

/-- `secp256k1_fe_to_signed62`, field_5x52_impl.h:463-472 -/
def Fe5.toSigned62 (a : Fe5) : S62 :=
  ⟨((a.n0 ||| u64 (a.n1 <<< 52)) &&& m62 : ℕ),
   ((a.n1 >>> 10 ||| u64 (a.n2 <<< 42)) &&& m62 : ℕ),
   ((a.n2 >>> 20 ||| u64 (a.n3 <<< 32)) &&& m62 : ℕ),
   ((a.n3 >>> 30 ||| u64 (a.n4 <<< 22)) &&& m62 : ℕ),
   (a.n4 >>> 40 : ℕ)⟩

/-- `secp256k1_const_modinfo_fe`, field_5x52_impl.h:474-477 -/
def modinfoFe : Modinfo := ⟨⟨-0x1000003D1, 0, 0, 0, 256⟩, 0x27C7F6E22DDACACF⟩

/-- `secp256k1_fe_impl_inv`, field_5x52_impl.h:479-487 -/
def Fe5.inv? (x : Fe5) : Option Fe5 :=
  (modinv64 (Fe5.toSigned62 (Fe5.normalize x)) modinfoFe).bind fun s => some (Fe5.fromSigned62 s)

/-- `secp256k1_fe_impl_inv_var`, field_5x52_impl.h:489-497 -/
def Fe5.invVar? (fuel : ℕ) (x : Fe5) : Option Fe5 :=
  (modinv64Var fuel (Fe5.toSigned62 (Fe5.normalizeVar x)) modinfoFe).bind fun s =>
  some (Fe5.fromSigned62 s)

/-- `secp256k1_fe_impl_is_square_var`, field_5x52_impl.h:499-520 -/
def Fe5.isSquareVar? [LimbInv] (x : Fe5) : Option Bool :=
  let tmp := Fe5.normalizeVar x
  if Fe5.isZero tmp then some true
  else
    (jacobi64MaybeVar (Fe5.toSigned62 tmp) modinfoFe).bind fun jac =>
    if jac = 0 then some (FeOps.sqrt tmp).2 else some (decide (jac ≥ 0))

/-! ### Scalars -/

/-- `secp256k1_scalar_from_signed62`, scalar_4x64_impl.h:927-945 -/
def Sc4.fromSigned62 (a : S62) : Sc4 :=
  let a0 := toU64 a.v0
  let a1 := toU64 a.v1
  let a2 := toU64 a.v2
  let a3 := toU64 a.v3
  let a4 := toU64 a.v4
  ⟨a0 ||| u64 (a1 <<< 62), a1 >>> 2 ||| u64 (a2 <<< 60), a2 >>> 4 ||| u64 (a3 <<< 58),
   a3 >>> 6 ||| u64 (a4 <<< 56)⟩

/-- `secp256k1_scalar_to_signed62`, scalar_4x64_impl.h:947-957 -/
def Sc4.toSigned62 (a : Sc4) : S62 :=
  ⟨(a.d0 &&& m62 : ℕ),
   ((a.d0 >>> 62 ||| u64 (a.d1 <<< 2)) &&& m62 : ℕ),
   ((a.d1 >>> 60 ||| u64 (a.d2 <<< 4)) &&& m62 : ℕ),
   ((a.d2 >>> 58 ||| u64 (a.d3 <<< 6)) &&& m62 : ℕ),
   (a.d3 >>> 56 : ℕ)⟩

/-- `secp256k1_const_modinfo_scalar`, scalar_4x64_impl.h:959-962 -/
def modinfoScalar : Modinfo :=
  ⟨⟨0x3FD25E8CD0364141, 0x2ABB739ABD2280EE, -0x15, 0, 256⟩, 0x34F20099AA774EC1⟩

/-- `secp256k1_scalar_inverse`, scalar_4x64_impl.h:964-977 -/
def Sc4.inverse? (x : Sc4) : Option Sc4 :=
  (modinv64 (Sc4.toSigned62 x) modinfoScalar).bind fun s => some (Sc4.fromSigned62 s)

/-- `secp256k1_scalar_inverse_var`, scalar_4x64_impl.h:979-992 -/
def Sc4.inverseVar? (fuel : ℕ) (x : Sc4) : Option Sc4 :=
  (modinv64Var fuel (Sc4.toSigned62 x) modinfoScalar).bind fun s => some (Sc4.fromSigned62 s)

end Secp.Model
