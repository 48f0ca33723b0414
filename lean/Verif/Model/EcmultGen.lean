import Verif.Model.Ecmult
import Verif.Model.Hash
import Verif.Model.Bytes
import Verif.Model.PreGen.C2_5
import Verif.Model.PreGen.C11_6
import Verif.Model.PreGen.C43_6

/-!
# Model of the constant-time generator multiplication

`/repo/src/ecmult_gen.h`, `/repo/src/ecmult_gen_impl.h`.  The comb parameters are a value of type
`CombCfg`, so that one model covers the three tables shipped in precomputed_ecmult_gen.c.
`uint32_t` arithmetic is `UInt32`.
-/

namespace Secp.Model

open FeOps

variable {α : Type} [FeOps α]

/-- `COMB_BLOCKS`, `COMB_TEETH`, and the table selected by them. -/
structure CombCfg where
  blocks : Nat
  teeth : Nat
  data : List (List (Nat × Nat))

/-- `COMB_SPACING = CEIL_DIV(COMB_RANGE, COMB_BLOCKS * COMB_TEETH)`, ecmult_gen.h:80, util.h:180 -/
def CombCfg.spacing (c : CombCfg) : Nat := 1 + (256 - 1) / (c.blocks * c.teeth)
/-- `COMB_BITS`, ecmult_gen.h:86 -/
def CombCfg.bits (c : CombCfg) : Nat := c.blocks * c.teeth * c.spacing
/-- `COMB_POINTS`, ecmult_gen.h:88 -/
def CombCfg.points (c : CombCfg) : Nat := 1 <<< (c.teeth - 1)
/-- `secp256k1_ecmult_gen_prec_table[block][index]`, precomputed_ecmult_gen.c:10-1776 -/
def CombCfg.table (c : CombCfg) (block index : Nat) : Nat × Nat :=
  (c.data.getD block []).getD index (0, 0)

/-- ECMULT_GEN_KB=2, precomputed_ecmult_gen.c:12-44 -/
def comb2 : CombCfg := ⟨2, 5, PreGen.c2_5⟩
/-- ECMULT_GEN_KB=22 (default of ecmult_gen.h:65-77), precomputed_ecmult_gen.c:45-397 -/
def comb22 : CombCfg := ⟨11, 6, PreGen.c11_6⟩
/-- ECMULT_GEN_KB=86 (default of the build systems), precomputed_ecmult_gen.c:398-1774 -/
def comb86 : CombCfg := ⟨43, 6, PreGen.c43_6⟩

/-- `secp256k1_ecmult_gen_context`, ecmult_gen.h:117-133, with the build's comb parameters. -/
structure GenCtxOf (α : Type) where
  cfg : CombCfg
  built : Bool
  scalarOffset : Fn
  geOffset : Ge α
  projBlind : α

/-- The context with field elements by value. -/
abbrev GenCtx := GenCtxOf Fp

/-- `secp256k1_rotr32`, util.h:440-449 -/
def rotr32 (x by_ : UInt32) : UInt32 := (x >>> (by_ &&& 31)) ||| (x <<< ((-by_) &&& 31))

/-- The loop over teeth, ecmult_gen_impl.h:209-228: `k` teeth left, the next one is `tooth`. -/
def genGather (recoded : List UInt32) (spacing : Nat) :
    Nat → Nat → UInt32 → Nat → UInt32 × Nat
  | 0, _, bits, bitPos => (bits, bitPos)
  | k + 1, tooth, bits, bitPos =>
    let bitdata := rotr32 (recoded.getD (bitPos >>> 5) 0) (UInt32.ofNat (bitPos &&& 0x1f))
    let vmask := ~~~((1 : UInt32) <<< UInt32.ofNat tooth)
    let bits := bits &&& vmask
    let bits := bits ^^^ (bitdata <<< UInt32.ofNat tooth)
    genGather recoded spacing k (tooth + 1) bits (bitPos + spacing)

/-- The lookup by conditional moves over a whole block, ecmult_gen_impl.h:247-249. -/
def genLookup (c : CombCfg) (block : Nat) (abs : UInt32) (adds : Nat × Nat) : Nat × Nat :=
  (List.range c.points).foldl
    (fun a index => if UInt32.ofNat index = abs then c.table block index else a) adds

/-- Local variables of `secp256k1_ecmult_gen`. -/
structure GenStateOf (α : Type) where
  r : Gej α
  adds : Nat × Nat
  first : Bool
  bitPos : Nat

/-- The local variables with field elements by value. -/
abbrev GenState := GenStateOf Fp

/-- Body of the inner loop, ecmult_gen_impl.h:198-265. -/
def genBlock (ctx : GenCtxOf α) (recoded : List UInt32) (st : GenStateOf α) (block : Nat) : GenStateOf α :=
  let c := ctx.cfg
  let g := genGather recoded c.spacing c.teeth 0 0 st.bitPos
  let bits := g.1
  let sign := (bits >>> UInt32.ofNat (c.teeth - 1)) &&& 1
  let abs := (bits ^^^ (-sign)) &&& UInt32.ofNat (c.points - 1)
  let adds := genLookup c block abs st.adds
  let add : Ge α := geFromStorage adds
  let neg := negate add.y 1
  let add := { add with y := FeOps.cmov add.y neg (sign != 0) }
  if st.first then
    { r := gejRescale (gejSetGe add) ctx.projBlind, adds := adds, first := false, bitPos := g.2 }
  else
    { r := gejAddGe st.r add, adds := adds, first := false, bitPos := g.2 }

/-- The inner loop, ecmult_gen_impl.h:197-266. -/
def genInner (ctx : GenCtxOf α) (recoded : List UInt32) (combOff : Nat) (st : GenStateOf α) : GenStateOf α :=
  (List.range ctx.cfg.blocks).foldl (genBlock ctx recoded) { st with bitPos := combOff }

/-- The doubling at the end of a round, ecmult_gen_impl.h:268-270. -/
def genDouble (st : GenStateOf α) : GenStateOf α := { st with r := gejDouble st.r }

/-- `for (i = k; ; i--) { body i; if (i-- == 0) break; after; }` -/
def downLoop {σ : Type} (body : Nat → σ → σ) (after : σ → σ) : Nat → σ → σ
  | 0, st => body 0 st
  | k + 1, st => downLoop body after k (after (body (k + 1) st))

/-- The outer loop, ecmult_gen_impl.h:192-271. -/
def genOuter (ctx : GenCtxOf α) (recoded : List UInt32) (k : Nat) (st : GenStateOf α) : GenStateOf α :=
  downLoop (genInner ctx recoded) genDouble k st

/-- The recoding of `d`, ecmult_gen_impl.h:63 and 110-114. -/
def genRecode (c : CombCfg) (d : Fn) : List UInt32 :=
  (List.range ((c.bits + 31) >>> 5)).map fun i =>
    if i < 8 then UInt32.ofNat (scGetBits d (32 * i) 32) else 0

/-- `secp256k1_ecmult_gen`, ecmult_gen_impl.h:54-282.  `r` is uninitialised at first. -/
def ecmultGen (ctx : GenCtxOf α) (gn : Fn) : Gej α :=
  let d := ctx.scalarOffset + gn
  let recoded := genRecode ctx.cfg d
  let st := genOuter ctx recoded (ctx.cfg.spacing - 1) ⟨⟨setInt 0, setInt 0, setInt 0, false⟩, (0, 0), true, 0⟩
  gejAddGe st.r ctx.geOffset

/-- `secp256k1_ecmult_gen_scalar_diff`, ecmult_gen_impl.h:36-52 -/
def genScalarDiff (c : CombCfg) : Fn :=
  let neghalf := -(scHalf 1)
  (List.range (c.bits - 1)).foldl (fun diff _ => diff + diff) 1 + neghalf

/-- `secp256k1_ge_const_g`, group_impl.h:72 -/
def geConstG : Ge α :=
  ⟨feConst 0x79BE667EF9DCBBAC55A06295CE870B07029BFCDB2DCE28D959F2815B16F81798,
   feConst 0x483ADA7726A3C4655DA4FBFC0E1108A8FD17B448A68554199C47D08FFB10D4B8, false⟩

/-- The reset of the blinding, ecmult_gen_impl.h:297-303. -/
def genBlindReset (ctx : GenCtxOf α) : GenCtxOf α :=
  { ctx with geOffset := geNeg geConstG, scalarOffset := 1 + genScalarDiff ctx.cfg,
             projBlind := setInt 1 }

/-- Replacing a zero projective factor, ecmult_gen_impl.h:318. -/
def genBlindFe (f : α) : α := FeOps.cmov f (setInt 1) (normalizesToZero f)

/-- Replacing a zero blinding scalar, ecmult_gen_impl.h:326. -/
def genBlindScalar (b : Fn) : Fn := scCmov b 1 (scIsZero b)

/-- Installing a projective factor `f` and a blinding scalar `b`, ecmult_gen_impl.h:319 and
328-331. -/
def genBlindApply (ctx : GenCtxOf α) (f : α) (b : Fn) : GenCtxOf α :=
  let diff := genScalarDiff ctx.cfg
  let ctx := { ctx with projBlind := f }
  let gb := ecmultGen ctx b
  { ctx with scalarOffset := -b + diff, geOffset := geSetGej gb }

/-- `secp256k1_ecmult_gen_blind`, ecmult_gen_impl.h:285-339; `none` is a NULL seed. -/
def ecmultGenBlind (ctx : GenCtx) (seed : Option (List UInt8)) : GenCtx :=
  match seed with
  | none => genBlindReset ctx
  | some seed32 =>
    let keydata := scGetB32 ctx.scalarOffset ++ seed32.take 32
    let rng := Hash.rngInitialize keydata
    let g1 := Hash.rngGenerate rng 32
    let g2 := Hash.rngGenerate g1.2 32
    genBlindApply ctx (genBlindFe (feSetB32Mod g1.1)) (genBlindScalar (scSetB32 g2.1).1)

/-- `secp256k1_ecmult_gen_context_build`, ecmult_gen_impl.h:17-20; every other field is set by
the reset. -/
def ecmultGenContextBuild (ctx : GenCtx) : GenCtx :=
  { ecmultGenBlind ctx none with built := true }

/-- `secp256k1_ecmult_gen_context_is_built`, ecmult_gen_impl.h:22-24 -/
def ecmultGenIsBuilt (ctx : GenCtx) : Bool := ctx.built

/-- `secp256k1_ecmult_gen_context_clear`, ecmult_gen_impl.h:26-31; `fe_clear`, `ge_clear` and
`scalar_clear` overwrite with zero bytes. -/
def ecmultGenContextClear (ctx : GenCtx) : GenCtx :=
  { ctx with built := false, scalarOffset := 0, geOffset := ⟨0, 0, false⟩, projBlind := 0 }

end Secp.Model
