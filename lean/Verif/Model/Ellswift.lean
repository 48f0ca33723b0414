import Verif.Model.Ecdh
import Verif.Model.Schnorr

/-!
# Model of `/repo/src/modules/ellswift/main_impl.h`

Field elements are values (`Fp`).
-/

namespace Secp.Model

open FeOps

/-- `secp256k1_ellswift_c1`, ellswift/main_impl.h:14-15 -/
def ellC1 : Fp := 0x851695d49a83f8ef919bb86153cbcb16630fb68aed0a766a3ec693d68e6afa40

/-- `secp256k1_ellswift_c2`, ellswift/main_impl.h:16-17 -/
def ellC2 : Fp := 0x7ae96a2b657c07106e64479eac3434e99cf0497512f58995c1396c28719501ee

/-- `secp256k1_ellswift_c3`, ellswift/main_impl.h:18-19 -/
def ellC3 : Fp := 0x7ae96a2b657c07106e64479eac3434e99cf0497512f58995c1396c28719501ef

/-- `secp256k1_ellswift_c4`, ellswift/main_impl.h:20-21 -/
def ellC4 : Fp := 0x851695d49a83f8ef919bb86153cbcb16630fb68aed0a766a3ec693d68e6afa41

/-- `secp256k1_ellswift_xswiftec_frac_var`, ellswift/main_impl.h:24-132: (`*xn`, `*xd`) -/
def xswiftecFracVar (u t : Fp) : Fp × Fp :=
  let u1 := if normalizesToZero u then setInt 1 else u
  let s := sqr t
  let s := if normalizesToZero t then setInt 1 else s
  let l := sqr u1
  let g := mul l u1
  let g := addInt g curveB
  let p := add g s
  let s := if normalizesToZero p then mulInt s 4 else s
  let p := add g s
  let d := mul s l
  let d := mulInt d 3
  let l := sqr p
  let l := negate l 1
  let n := mul d u1
  let n := add n l
  if geXFracOnCurveVar n d then (n, d)
  else
    let l := mul ellC1 s
    let n := mul ellC2 g
    let n := add n l
    let n := mul n u1
    if geXFracOnCurveVar n p then (n, p)
    else
      let l := mul p u1
      let n := add n l
      (negate n 2, p)

/-- `secp256k1_ellswift_xswiftec_var`, ellswift/main_impl.h:135-140 -/
def xswiftecVar (u t : Fp) : Fp :=
  let f := xswiftecFracVar u t
  mul f.1 (invVar f.2)

/-- `secp256k1_ellswift_swiftec_var`, ellswift/main_impl.h:143-147; the return value of
`secp256k1_ge_set_xo_var` is ignored -/
def swiftecVar (u t : Fp) : Ge Fp := (geSetXoVar (xswiftecVar u t) (feIsOdd t)).1

/-- The end of `secp256k1_ellswift_xswiftec_inv_var`, ellswift/main_impl.h:289-302 -/
def xswiftecInvEnd (u s v : Fp) (c : ℕ) : Fp :=
  let m := (FeOps.sqrt s).1
  let m := if c &&& 5 = 0 ∨ c &&& 5 = 5 then negate m 1 else m
  let u := mul u (if c &&& 1 = 1 then ellC4 else ellC3)
  let u := add u v
  mul m u

/-- `secp256k1_ellswift_xswiftec_inv_var`, ellswift/main_impl.h:168-303: `*t`, `none` for return
value 0 -/
def xswiftecInvVar (x u : Fp) (c : ℕ) : Option Fp :=
  let x := normalizeWeak x
  let u := normalizeWeak u
  if c &&& 2 = 0 then
    let m := add x u
    let m := negate m 2
    if geXOnCurveVar m then none
    else
      let s := sqr m
      let s := negate s 1
      let m := mul u x
      let s := add s m
      let g := sqr u
      let g := mul g u
      let g := addInt g curveB
      let m := mul s g
      if !feIsSquareVar m then none
      else
        let s := invVar s
        let s := mul s g
        some (xswiftecInvEnd u s x c)
  else
    let m := negate u 1
    let s := add m x
    if !feIsSquareVar s then none
    else
      let g := sqr u
      let q := mul s g
      let q := mulInt q 3
      let g := mul g u
      let g := mulInt g 4
      let g := addInt g (4 * curveB)
      let q := add q g
      let q := mul q s
      let q := negate q 1
      if !feIsSquareVar q then none
      else
        let r := (FeOps.sqrt q).1
        if c &&& 1 = 1 ∧ normalizesToZero r then none
        else if normalizesToZero s then none
        else
          let v := invVar s
          let v := mul v r
          let v := add v m
          let v := half v
          some (xswiftecInvEnd u s v c)

/-- The counter as four bytes, ellswift/main_impl.h:316-319 -/
def prngBuf4 (cnt : UInt32) : List UInt8 :=
  [cnt.toUInt8, (cnt >>> 8).toUInt8, (cnt >>> 16).toUInt8, (cnt >>> 24).toUInt8]

/-- `secp256k1_ellswift_prng`, ellswift/main_impl.h:310-325 -/
def ellswiftPrng (hasher : Hash.Sha) (cnt : UInt32) : List UInt8 :=
  (Hash.finalize (Hash.write hasher (prngBuf4 cnt))).1

/-- A branch value from the pool, ellswift/main_impl.h:352-354 (`left` has been decremented) -/
def ellBranch (branchHash : List UInt8) (left : ℕ) : ℕ :=
  ((branchHash.getD (left >>> 1) 0).toNat >>> ((left &&& 1) <<< 2)) &&& 7

/-- The pool of branch values after the test at ellswift/main_impl.h:347-351: (`branch_hash`,
`branches_left`, `cnt`) -/
def ellPool (hasher : Hash.Sha) (branchHash : List UInt8) (left : ℕ) (cnt : UInt32) :
    List UInt8 × ℕ × UInt32 :=
  if left = 0 then (ellswiftPrng hasher cnt, 64, cnt + 1) else (branchHash, left, cnt)

/-- The loop of `secp256k1_ellswift_xelligatorswift_var`, ellswift/main_impl.h:344-366: (`u32`, `*t`).
The loop of the C code is unbounded; `none` means that the first `fuel` iterations found nothing. -/
def xelligatorswiftLoop (x : Fp) (hasher : Hash.Sha) :
    (fuel : ℕ) → List UInt8 → ℕ → UInt32 → Option (List UInt8 × Fp)
  | 0, _, _, _ => none
  | fuel + 1, branchHash, left, cnt =>
    let pool := ellPool hasher branchHash left cnt
    let left := pool.2.1 - 1
    let branch := ellBranch pool.1 left
    let u32 := ellswiftPrng hasher pool.2.2
    let u := feSetB32Mod u32
    match xswiftecInvVar x u branch with
    | some t => some (u32, t)
    | none => xelligatorswiftLoop x hasher fuel pool.1 left (pool.2.2 + 1)

/-- `secp256k1_ellswift_xelligatorswift_var`, ellswift/main_impl.h:333-367; `branch_hash` is
uninitialised at first. -/
def xelligatorswiftVar (fuel : ℕ) (x : Fp) (hasher : Hash.Sha) : Option (List UInt8 × Fp) :=
  xelligatorswiftLoop x hasher fuel [] 0 0

/-- `secp256k1_ellswift_elligatorswift_var`, ellswift/main_impl.h:375-382 -/
def elligatorswiftVar (fuel : ℕ) (p : Ge Fp) (hasher : Hash.Sha) : Option (List UInt8 × Fp) :=
  match xelligatorswiftVar fuel p.x hasher with
  | none => none
  | some r =>
    let t := FeOps.normalize r.2
    let t := if feIsOdd t != feIsOdd p.y then FeOps.normalize (negate t 1) else t
    some (r.1, t)

/-- `secp256k1_ellswift_sha256_init_encode`, ellswift/main_impl.h:385-397 -/
def ellswiftEncodeMid : List UInt32 :=
  [0xd1a6524b, 0x028594b3, 0x96e42f4e, 0x1037a177, 0x1b8fcb8b, 0x56023885, 0x2560ede1, 0xd626b715]

/-- Both halves of the output, ellswift/main_impl.h:426-427 and 480-481 -/
def ellswiftPut (ell64 : List UInt8) (r : List UInt8 × Fp) : List UInt8 :=
  put (put ell64 0 r.1) 32 (feGetB32 r.2)

/-- `secp256k1_ellswift_encode`, ellswift/main_impl.h:399-433.  Memory: `ell64`.  `none`: the search
takes more than `fuel` iterations. -/
def ellswiftEncode (fuel : ℕ) (ell64 pubkey rnd32 : Option (List UInt8)) :
    Option (Out (Option (List UInt8))) :=
  match ell64 with
  | none => some (.argFail none)
  | some ell =>
    match pubkey with
    | none => some (.argFail (some ell))
    | some pubkey =>
      match rnd32 with
      | none => some (.argFail (some ell))
      | some rnd =>
        let p := pubkeyLoad pubkey
        if p.2 then
          let hash := shaMidstate Hash.uninit ellswiftEncodeMid
          let ser := eckeyPubkeySerialize p.1 (zeros 64) 0 true
          let hash := Hash.write hash (ser.1.take 64)
          let hash := Hash.write hash (rnd.take 32)
          match elligatorswiftVar fuel p.1 hash with
          | none => none
          | some r => some ⟨1, 0, some (ellswiftPut ell r)⟩
        else some ⟨0, 1, some (put ell 0 (zeros 64))⟩

/-- `secp256k1_ellswift_sha256_init_create`, ellswift/main_impl.h:436-448 -/
def ellswiftCreateMid : List UInt32 :=
  [0xd29e1bf5, 0xf7025f42, 0x9b024773, 0x094cb7d5, 0xe59ed789, 0x03bc9786, 0x68335b35, 0x4e363b53]

/-- The hash object of `secp256k1_ellswift_create`, ellswift/main_impl.h:471-477 -/
def ellswiftCreateHasher (seckey : List UInt8) (auxrnd : Option (List UInt8)) : Hash.Sha :=
  let hash := shaMidstate Hash.uninit ellswiftCreateMid
  let hash := Hash.write hash (seckey.take 32)
  let hash := Hash.write hash (zeros 32)
  match auxrnd with
  | some aux => Hash.write hash (aux.take 32)
  | none => hash

/-- `secp256k1_ellswift_create`, ellswift/main_impl.h:450-487.  Memory: `ell64` -/
def ellswiftCreate (ctx : Ctx) (fuel : ℕ) (ell64 seckey32 auxrnd32 : Option (List UInt8)) :
    Option (Out (Option (List UInt8))) :=
  match ell64 with
  | none => some (.argFail none)
  | some ell =>
    let ell := put ell 0 (zeros 64)
    if !ecmultGenIsBuilt ctx.gen then some (.argFail (some ell))
    else
      match seckey32 with
      | none => some (.argFail (some ell))
      | some seckey =>
        let h := ecPubkeyCreateHelper ctx.gen seckey
        let p : Ge Fp :=
          { h.2.1 with x := FeOps.normalize h.2.1.x, y := FeOps.normalize h.2.1.y }
        match elligatorswiftVar fuel p (ellswiftCreateHasher seckey auxrnd32) with
        | none => none
        | some r => some ⟨cInt h.2.2, 0, some (memczero (ellswiftPut ell r) (!h.2.2))⟩

/-- `secp256k1_ellswift_decode`, ellswift/main_impl.h:489-502.  Memory: `pubkey` -/
def ellswiftDecode (pubkey ell64 : Option (List UInt8)) : Out (Option (List UInt8)) :=
  match pubkey with
  | none => .argFail none
  | some pubkey =>
    match ell64 with
    | none => .argFail (some pubkey)
    | some ell =>
      let u := feSetB32Mod ell
      let t := feSetB32Mod (ell.drop 32)
      let t := FeOps.normalize t
      let p := swiftecVar u t
      ⟨1, 0, some (pubkeySave p)⟩

/-- A hash function for the key exchange (include/secp256k1_ellswift.h:48-70): from the old contents of
`output`, the shared x coordinate, both encodings and (in the closure) the caller's `data`, the return
value and the new contents of `output`. -/
abbrev EllswiftHash := (output x32 ellA64 ellB64 : List UInt8) → Int × List UInt8

/-- `ellswift_xdh_hash_function_prefix`, ellswift/main_impl.h:504-516 -/
def ellswiftHashPrefix (data : List UInt8) : EllswiftHash := fun output x32 a b =>
  let sha := Hash.init Hash.uninit
  let sha := Hash.write sha (data.take 64)
  let sha := Hash.write sha (a.take 64)
  let sha := Hash.write sha (b.take 64)
  let sha := Hash.write sha (x32.take 32)
  (1, put output 0 (Hash.finalize sha).1)

/-- `secp256k1_ellswift_sha256_init_bip324`, ellswift/main_impl.h:519-531 -/
def ellswiftBip324Mid : List UInt32 :=
  [0x8c12d730, 0x827bd392, 0x9e4fb2ee, 0x207b373e, 0x2292bd7a, 0xaa5441bc, 0x15c3779f, 0xcfb52549]

/-- `ellswift_xdh_hash_function_bip324`, ellswift/main_impl.h:533-546 -/
def ellswiftHashBip324 : EllswiftHash := fun output x32 a b =>
  let sha := shaMidstate Hash.uninit ellswiftBip324Mid
  let sha := Hash.write sha (a.take 64)
  let sha := Hash.write sha (b.take 64)
  let sha := Hash.write sha (x32.take 32)
  (1, put output 0 (Hash.finalize sha).1)

/-- `secp256k1_ellswift_xdh`, ellswift/main_impl.h:551-590.  Memory: `output`.  The flag that
`secp256k1_scalar_set_b32` stores in `overflow` is overwritten at line 574.  When
`secp256k1_ecmult_const_xonly` is told that the coordinate is on the curve it returns 1 and sets `px`;
the model leaves `px` at 0 in the other case. -/
def ellswiftXdh (output ellA64 ellB64 seckey32 : Option (List UInt8)) (party : Int)
    (hashfp : Option EllswiftHash) : Out (Option (List UInt8)) :=
  match output with
  | none => .argFail none
  | some out =>
    match ellA64 with
    | none => .argFail (some out)
    | some a =>
      match ellB64 with
      | none => .argFail (some out)
      | some b =>
        match seckey32 with
        | none => .argFail (some out)
        | some seckey =>
          match hashfp with
          | none => .argFail (some out)
          | some hashfp =>
            let theirs := if party ≠ 0 then a else b
            let u := feSetB32Mod theirs
            let t := feSetB32Mod (theirs.drop 32)
            let x := xswiftecFracVar u t
            let s := (scSetB32 seckey).1
            let overflow := scIsZero s
            let s := scCmov s 1 overflow
            let px := (ecmultConstXonly x.1 (some x.2) s true).getD 0
            let sx := feGetB32 (FeOps.normalize px)
            let r := hashfp out sx a b
            ⟨cInt (r.1 ≠ 0 && !overflow), 0, some r.2⟩

end Secp.Model
