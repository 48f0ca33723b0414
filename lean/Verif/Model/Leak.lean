import Verif.Model.Hash
import Verif.Model.EcmultGen
import Verif.Model.EcmultConst

/-!
# What an observer of the execution sees: hashing and the constant-time multiplications

The functions of this file and of `Verif/Model/LeakApi.lean` are the functions of the other model files
once more, with a record of everything that someone who measures time or watches caches could learn:
the outcome of every branch, the position of every memory access that is computed at run time (table
lookups, offsets and lengths of copies), the arguments of every function that the library marks as not
constant time (`_var`), and the values that the library itself declassifies (`secp256k1_declassify`,
secp256k1.c:236-238).  `val` of each is the function of the same name in the other files
(`Verif/Proof/Leak.lean`).

Simplifications.  Scalar and field arithmetic, conversions between bytes and scalars or field elements,
conditional moves, and the constant-time group functions (`secp256k1_gej_add_ge`,
`secp256k1_gej_double`, `secp256k1_gej_rescale`, `secp256k1_ge_set_gej`, conversions from and to storage
and bytes) are single steps that an observer learns nothing from: their C code is straight-line code and
loops with constant bounds, without branches or array indices that depend on their arguments.  So is
`secp256k1_sha256_transform`.  Loops with bounds that are constants in the C code are not recorded test
by test.  What a compiler makes of the source is outside the model.

In these files a decision that depends on run-time data is always written `if ← branch …`.
-/

namespace Secp.Leak

open Model (Ge Gej)

/-- One thing an observer sees. -/
inductive Ev
  /-- a branch, taken or not -/
  | branch (b : Bool)
  /-- a memory access at a computed index, or a computed offset or length of a copy -/
  | access (i : Nat)
  /-- a call of a variable-time function with these arguments -/
  | vartime (args : List Nat)
  /-- the library declares these values to be public -/
  | declassify (v : List Nat)
  deriving DecidableEq, Repr

/-- A computation: its result and what an observer has seen when it ends. -/
structure Ct (α : Type) where
  val : α
  trace : List Ev

instance : Monad Ct where
  pure a := ⟨a, []⟩
  bind m f := ⟨(f m.val).val, m.trace ++ (f m.val).trace⟩

/-- A decision. -/
def branch (b : Bool) : Ct Bool := ⟨b, [.branch b]⟩
/-- An access at a computed position. -/
def access (i : Nat) : Ct Unit := ⟨(), [.access i]⟩
/-- A call of a variable-time function. -/
def vartime {α : Type} (args : List Nat) (result : α) : Ct α := ⟨result, [.vartime args]⟩
/-- `secp256k1_declassify`, secp256k1.c:236-238 -/
def declassify (v : List Nat) : Ct Unit := ⟨(), [.declassify v]⟩

/-- The values declassified in the course of a computation. -/
def declassified (t : List Ev) : List (List Nat) :=
  t.filterMap fun e => match e with
    | .declassify v => some v
    | _ => none

/-- The numbers that make up a byte string, a field element, a point. -/
def bytesNats (b : List UInt8) : List Nat := b.map UInt8.toNat
/-- See `bytesNats`. -/
def geNats (a : Ge Fp) : List Nat := [a.x.val, a.y.val, a.infinity.toNat]

/-! ## Hashing -/

/-- `memcpy` with an offset and a length known at run time. -/
def memcpy (buf : List UInt8) (off : Nat) (data : List UInt8) : Ct (List UInt8) := do
  access off
  access data.length
  return Hash.memcpy buf off data

/-- The while loop of `secp256k1_sha256_write` and the copy of the rest, hash_impl.h:130-142. -/
def writeLoop : Nat → List UInt32 → List UInt8 → Nat → List UInt8 → Ct (List UInt32 × List UInt8)
  | 0, s, buf, _, _ => return (s, buf)
  | fuel + 1, s, buf, bufsize, data => do
    if ← branch (data.length ≥ 64 - bufsize) then
      let chunk := 64 - bufsize
      let buf ← memcpy buf bufsize (data.take chunk)
      writeLoop fuel (Hash.transform s buf) buf 0 (data.drop chunk)
    else if ← branch (data.length ≠ 0) then
      let buf ← memcpy buf bufsize data
      return (s, buf)
    else return (s, buf)

/-- `secp256k1_sha256_write`, hash_impl.h:126-143 -/
def write (h : Hash.Sha) (data : List UInt8) : Ct Hash.Sha := do
  let bufsize := (h.bytes &&& 0x3F).toNat
  let r ← writeLoop (data.length + 1) h.s h.buf bufsize data
  return { s := r.1, buf := r.2, bytes := h.bytes + UInt64.ofNat data.length }

/-- `secp256k1_sha256_finalize`, hash_impl.h:145-159 -/
def finalize (h : Hash.Sha) : Ct (List UInt8 × Hash.Sha) := do
  let pad : List UInt8 := 0x80 :: List.replicate 63 0
  let sizedesc := Hash.writeBe32 (h.bytes >>> 29).toUInt32 ++ Hash.writeBe32 (h.bytes <<< 3).toUInt32
  let h' ← write h (pad.take (1 + ((119 - h.bytes.toNat % 64) % 64)))
  let h' ← write h' sizedesc
  return (h'.s.flatMap Hash.writeBe32, { h' with s := List.replicate 8 0 })

/-- `secp256k1_sha256_initialize_tagged`, hash_impl.h:163-172 -/
def initializeTagged (h : Hash.Sha) (tag : List UInt8) : Ct Hash.Sha := do
  let h ← write (Hash.init h) tag
  let r ← finalize h
  let h ← write (Hash.init r.2) r.1
  write h r.1

/-- The key block `rkey`, hash_impl.h:179-190 -/
def hmacRkey (key : List UInt8) : Ct (List UInt8) := do
  if ← branch (key.length ≤ 64) then
    access key.length
    return key ++ List.replicate (64 - key.length) 0
  else
    let h ← write (Hash.init Hash.uninit) key
    let r ← finalize h
    return r.1 ++ List.replicate 32 0

/-- `secp256k1_hmac_sha256_initialize`, hash_impl.h:178-204 -/
def hmacInitialize (h : Hash.Hmac) (key : List UInt8) : Ct Hash.Hmac := do
  let rkey ← hmacRkey key
  let rkey := rkey.map (· ^^^ 0x5c)
  let outer ← write (Hash.init h.outer) rkey
  let rkey := rkey.map (· ^^^ (0x5c ^^^ 0x36))
  let inner ← write (Hash.init h.inner) rkey
  return ⟨inner, outer⟩

/-- `secp256k1_hmac_sha256_write`, hash_impl.h:206-208 -/
def hmacWrite (h : Hash.Hmac) (data : List UInt8) : Ct Hash.Hmac := do
  let inner ← write h.inner data
  return { h with inner := inner }

/-- The writes of `hmacSeq`, one after the other. -/
def hmacWrites (h : Hash.Hmac) : List (List UInt8) → Ct Hash.Hmac
  | [] => return h
  | w :: ws => do
    let h ← hmacWrite h w
    hmacWrites h ws

/-- `secp256k1_hmac_sha256_finalize`, hash_impl.h:210-216 -/
def hmacFinalize (h : Hash.Hmac) : Ct (List UInt8 × Hash.Hmac) := do
  let r ← finalize h.inner
  let outer ← write h.outer r.1
  let o ← finalize outer
  return (o.1, ⟨r.2, o.2⟩)

/-- See `Hash.hmacSeq`; hash_impl.h:231-248 and 256-277. -/
def hmacSeq (k : List UInt8) (ws : List (List UInt8)) : Ct (List UInt8) := do
  let h ← hmacInitialize ⟨Hash.uninit, Hash.uninit⟩ k
  let h ← hmacWrites h ws
  let r ← hmacFinalize h
  return r.1

/-- `secp256k1_rfc6979_hmac_sha256_initialize`, hash_impl.h:222-250 -/
def rngInitialize (key : List UInt8) : Ct Hash.Rng := do
  let v := List.replicate 32 0x01
  let k := List.replicate 32 0x00
  let k ← hmacSeq k [v, [0x00], key]
  let v ← hmacSeq k [v]
  let k ← hmacSeq k [v, [0x01], key]
  let v ← hmacSeq k [v]
  return ⟨v, k, 0⟩

/-- The while loop of `secp256k1_rfc6979_hmac_sha256_generate`, hash_impl.h:267-278 -/
def rngLoop (k : List UInt8) : Nat → List UInt8 → Nat → Ct (List UInt8 × List UInt8)
  | 0, v, _ => return ([], v)
  | fuel + 1, v, outlen => do
    if ← branch (outlen > 0) then
      let v ← hmacSeq k [v]
      let now := if ← branch (outlen > 32) then 32 else outlen
      access now
      let r ← rngLoop k fuel v (outlen - now)
      return (v.take now ++ r.1, r.2)
    else return ([], v)

/-- `secp256k1_rfc6979_hmac_sha256_generate`, hash_impl.h:252-281 -/
def rngGenerate (rng : Hash.Rng) (outlen : Nat) : Ct (List UInt8 × Hash.Rng) := do
  let kv ← if ← branch (rng.retry ≠ 0) then do
      let k ← hmacSeq rng.k [rng.v, [0x00]]
      let v ← hmacSeq k [rng.v]
      pure (k, v)
    else pure (rng.k, rng.v)
  let r ← rngLoop kv.1 outlen kv.2 outlen
  return (r.1, ⟨r.2, kv.1, 1⟩)

/-! ## Multiplication of the generator -/

/-- The loop over teeth, ecmult_gen_impl.h:209-228: which word of the recoded scalar is read. -/
def genGather (recoded : List UInt32) (spacing : Nat) : Nat → Nat → UInt32 → Nat → Ct (UInt32 × Nat)
  | 0, _, bits, bitPos => return (bits, bitPos)
  | k + 1, tooth, bits, bitPos => do
    access (bitPos >>> 5)
    let bitdata := Model.rotr32 (recoded.getD (bitPos >>> 5) 0) (UInt32.ofNat (bitPos &&& 0x1f))
    let vmask := ~~~((1 : UInt32) <<< UInt32.ofNat tooth)
    let bits := bits &&& vmask
    let bits := bits ^^^ (bitdata <<< UInt32.ofNat tooth)
    genGather recoded spacing k (tooth + 1) bits (bitPos + spacing)

/-- The loop of the table lookup, ecmult_gen_impl.h:247-249: every entry of the block is read; the
conditional move (`secp256k1_ge_storage_cmov`) is one step. -/
def genLookup (c : Model.CombCfg) (block : Nat) (abs : UInt32) :
    List Nat → Nat × Nat → Ct (Nat × Nat)
  | [], adds => return adds
  | index :: l, adds => do
    access block
    access index
    let adds := if UInt32.ofNat index = abs then c.table block index else adds
    genLookup c block abs l adds

/-- Body of the inner loop, ecmult_gen_impl.h:198-265 -/
def genBlock (ctx : Model.GenCtx) (recoded : List UInt32) (st : Model.GenState) (block : Nat) :
    Ct Model.GenState := do
  let c := ctx.cfg
  let g ← genGather recoded c.spacing c.teeth 0 0 st.bitPos
  let bits := g.1
  let sign := (bits >>> UInt32.ofNat (c.teeth - 1)) &&& 1
  let abs := (bits ^^^ (-sign)) &&& UInt32.ofNat (c.points - 1)
  let adds ← genLookup c block abs (List.range c.points) st.adds
  let add := Model.geFromStorage adds
  let neg := Model.FeOps.negate add.y 1
  let add := { add with y := Model.FeOps.cmov add.y neg (sign != 0) }
  if ← branch st.first then
    return { r := Model.gejRescale (Model.gejSetGe add) ctx.projBlind, adds := adds, first := false,
             bitPos := g.2 }
  else
    return { r := Model.gejAddGe st.r add, adds := adds, first := false, bitPos := g.2 }

/-- The inner loop, ecmult_gen_impl.h:197-266, over the given blocks. -/
def genInner (ctx : Model.GenCtx) (recoded : List UInt32) :
    List Nat → Model.GenState → Ct Model.GenState
  | [], st => return st
  | block :: l, st => do
    let st ← genBlock ctx recoded st block
    genInner ctx recoded l st

/-- The outer loop, ecmult_gen_impl.h:192-271; the test at line 268 ends it when `comb_off` is 0. -/
def genOuter (ctx : Model.GenCtx) (recoded : List UInt32) : Nat → Model.GenState → Ct Model.GenState
  | 0, st => do
    let st ← genInner ctx recoded (List.range ctx.cfg.blocks) { st with bitPos := 0 }
    let _ ← branch true
    return st
  | k + 1, st => do
    let st ← genInner ctx recoded (List.range ctx.cfg.blocks) { st with bitPos := k + 1 }
    let _ ← branch false
    genOuter ctx recoded k (Model.genDouble st)

/-- `secp256k1_ecmult_gen`, ecmult_gen_impl.h:54-282 -/
def ecmultGen (ctx : Model.GenCtx) (gn : Fn) : Ct (Gej Fp) := do
  let d := ctx.scalarOffset + gn
  let recoded := Model.genRecode ctx.cfg d
  let st ← genOuter ctx recoded (ctx.cfg.spacing - 1) ⟨⟨Model.FeOps.setInt 0, Model.FeOps.setInt 0, Model.FeOps.setInt 0, false⟩, (0, 0), true, 0⟩
  return Model.gejAddGe st.r ctx.geOffset

/-- `secp256k1_ecmult_gen_blind`, ecmult_gen_impl.h:285-339 -/
def ecmultGenBlind (ctx : Model.GenCtx) (seed : Option (List UInt8)) : Ct Model.GenCtx := do
  let _ ← branch seed.isNone
  match seed with
  | none => return Model.genBlindReset ctx
  | some seed32 =>
    let keydata := Model.scGetB32 ctx.scalarOffset ++ seed32.take 32
    let rng ← rngInitialize keydata
    let g1 ← rngGenerate rng 32
    let g2 ← rngGenerate g1.2 32
    let f := Model.genBlindFe (Model.feSetB32Mod g1.1)
    let b := Model.genBlindScalar (Model.scSetB32 g2.1).1
    let diff := Model.genScalarDiff ctx.cfg
    let ctx := { ctx with projBlind := f }
    let gb ← ecmultGen ctx b
    return { ctx with scalarOffset := -b + diff, geOffset := Model.geSetGej gb }

/-! ## Multiplication of any point -/

/-- The loop of `ECMULT_CONST_TABLE_GET_GE`, ecmult_const_impl.h:94-99: iterations `1 … m`, every entry
is read. -/
def constTableGetLoop (pre : List (Ge Fp)) (index : Nat) : Nat → Ct (Ge Fp)
  | 0 => do
    access 0
    return { x := (pre.getD 0 Model.geGarbage).x, y := (pre.getD 0 Model.geGarbage).y, infinity := false }
  | m + 1 => do
    let r ← constTableGetLoop pre index m
    access (m + 1)
    let r := { r with x := Model.FeOps.cmov r.x (pre.getD (m + 1) Model.geGarbage).x (m + 1 == index) }
    return { r with y := Model.FeOps.cmov r.y (pre.getD (m + 1) Model.geGarbage).y (m + 1 == index) }

/-- `ECMULT_CONST_TABLE_GET_GE`, ecmult_const_impl.h:61-103 -/
def constTableGetGe (pre : List (Ge Fp)) (k : Nat) : Ct (Ge Fp) := do
  let negative := (k >>> (Model.constGroupSize - 1)) ^^^ 1
  let index := (((2 ^ 32 - negative) % 2 ^ 32) ^^^ k) &&& (2 ^ (Model.constGroupSize - 1) - 1)
  let r ← constTableGetLoop pre index (Model.constTableSize - 1)
  let r := { r with infinity := false }
  let negY := Model.FeOps.negate r.y 1
  return { r with y := Model.FeOps.cmov r.y negY (negative != 0) }

/-- `secp256k1_scalar_get_bits_var`, scalar_4x64_impl.h:47-60: the branch and the array index depend on
`offset` and `count`. -/
def scGetBitsVar (a : Fn) (offset count : Nat) : Ct Nat := do
  let _ ← branch (decide ((offset + count - 1) >>> 6 = offset >>> 6))
  access (offset >>> 6)
  return Model.scGetBits a offset count

/-- The loop at ecmult_const_impl.h:244-264, iterations `g-1, …, 0` -/
def constLoop (preA preALam : List (Ge Fp)) (v1 v2 : Fn) : Nat → Gej Fp → Ct (Gej Fp)
  | 0, r => return r
  | group + 1, r => do
    let bits1 ← scGetBitsVar v1 (group * Model.constGroupSize) Model.constGroupSize
    let bits2 ← scGetBitsVar v2 (group * Model.constGroupSize) Model.constGroupSize
    let t ← constTableGetGe preA bits1
    let r := if ← branch (decide (group = Model.constGroups - 1)) then Model.gejSetGe t
      else Model.gejAddGe (Model.gejDoubleN r Model.constGroupSize) t
    let t ← constTableGetGe preALam bits2
    let r := Model.gejAddGe r t
    constLoop preA preALam v1 v2 group r

/-- `secp256k1_ecmult_const`, ecmult_const_impl.h:124-268.  The table of multiples of `a` is made by
variable-time code (`secp256k1_ecmult_odd_multiples_table`) from `a` alone. -/
def ecmultConst (a : Ge Fp) (q : Fn) : Ct (Gej Fp) := do
  if ← branch a.infinity then return Model.gejInfinity
  else
    let s := q + Model.scConst Model.constK
    let s := Model.scHalf s
    let sp := Model.scSplitLambda s
    let v1 := sp.1 + Model.scConst Model.constSOffset
    let v2 := sp.2 + Model.scConst Model.constSOffset
    let r := Model.gejSetGe a
    let t ← vartime (geNats a) (Model.constOddMultiplesTableGlobalz r)
    let preALam := t.1.map Model.geMulLambda
    let r ← constLoop t.1 preALam v1 v2 Model.constGroups r
    return { r with z := Model.FeOps.mul r.z t.2 }

/-- The test that the coordinate is on the curve, ecmult_const_impl.h:356-367 and 370-373, of a number
that is a square if and only if it is. -/
def constXonlyOk (c : Fp) (knownOnCurve : Bool) : Ct Bool := do
  if ← branch (!knownOnCurve) then vartime [c.val] (Model.feIsSquareVar c) else return true

/-- `secp256k1_ecmult_const_xonly`, ecmult_const_impl.h:270-397 -/
def ecmultConstXonly (n : Fp) (d : Option Fp) (q : Fn) (knownOnCurve : Bool) : Ct (Option Fp) := do
  let g := Model.FeOps.sqr n
  let g := Model.FeOps.mul g n
  let _ ← branch d.isSome
  let g := match d with
    | some d => Model.FeOps.add g (Model.FeOps.mul (Model.FeOps.mulInt (Model.FeOps.sqr d) Model.curveB) d)
    | none => Model.FeOps.addInt g Model.curveB
  let c := match d with
    | some d => Model.FeOps.mul g d
    | none => g
  let ok ← constXonlyOk c knownOnCurve
  if ← branch (!ok) then return none
  else
    let px := Model.FeOps.mul g n
    let py := Model.FeOps.sqr g
    let rj ← ecmultConst ⟨px, py, false⟩ q
    let i := Model.FeOps.sqr rj.z
    let i := Model.FeOps.mul i g
    let _ ← branch d.isSome
    let i := match d with
      | some d => Model.FeOps.mul i d
      | none => i
    let i := Model.FeOps.inv i
    return some (Model.FeOps.mul rj.x i)

end Secp.Leak
