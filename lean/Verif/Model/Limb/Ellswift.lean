import Verif.Model.Limb.Api
import Verif.Model.Ellswift

/-!
# ElligatorSwift over any field implementation

As `Verif/Model/Limb/Api.lean`: the definitions of `Verif/Model/Ellswift.lean`, and of what they use from
`GroupX.lean` and `EcmultConst.lean`, with the field elements in limbs.
-/

namespace Secp.Model.Limb

open FeOps

variable {α : Type} [FeOps α] [FeMem α]

/-- `secp256k1_fe_is_square_var`, field.h:340 -/
def feIsSquareVar (a : α) : Bool := FeMem.isSquareVar a

/-- `secp256k1_ellswift_c1`, ellswift/main_impl.h:14-15 -/
def ellC1 : α := feConst 0x851695d49a83f8ef919bb86153cbcb16630fb68aed0a766a3ec693d68e6afa40

/-- `secp256k1_ellswift_c2`, ellswift/main_impl.h:16-17 -/
def ellC2 : α := feConst 0x7ae96a2b657c07106e64479eac3434e99cf0497512f58995c1396c28719501ee

/-- `secp256k1_ellswift_c3`, ellswift/main_impl.h:18-19 -/
def ellC3 : α := feConst 0x7ae96a2b657c07106e64479eac3434e99cf0497512f58995c1396c28719501ef

/-- `secp256k1_ellswift_c4`, ellswift/main_impl.h:20-21 -/
def ellC4 : α := feConst 0x851695d49a83f8ef919bb86153cbcb16630fb68aed0a766a3ec693d68e6afa41

/-- `secp256k1_ge_x_on_curve_var`, group_impl.h:948-954 -/
def geXOnCurveVar (x : α) : Bool :=
  let c := sqr x
  let c := mul c x
  let c := addInt c curveB
  feIsSquareVar c

/-- `secp256k1_ge_x_frac_on_curve_var`, group_impl.h:956-973 -/
def geXFracOnCurveVar (xn xd : α) : Bool :=
  let r := mul xd xn
  let t := sqr xn
  let r := mul r t
  let t := sqr xd
  let t := sqr t
  let t := mulInt t curveB
  let r := add r t
  feIsSquareVar r

/-- `secp256k1_ecmult_const_xonly`, ecmult_const_impl.h:270-397: `none` is the return value 0.
`d = none` is the NULL pointer. -/
def ecmultConstXonly (n : α) (d : Option α) (q : Fn) (knownOnCurve : Bool) : Option α :=
  let g := sqr n
  let g := mul g n
  let (g, ok) := match d with
    | some d =>
      let b := sqr d
      let b := mulInt b curveB
      let b := mul b d
      let g := add g b
      let c := mul g d
      (g, knownOnCurve || feIsSquareVar c)
    | none =>
      let g := addInt g curveB
      (g, knownOnCurve || feIsSquareVar g)
  if !ok then none
  else
    let px := mul g n
    let py := sqr g
    let rj := ecmultConst ⟨px, py, false⟩ q
    let i := sqr rj.z
    let i := mul i g
    let i := match d with
      | some d => mul i d
      | none => i
    let i := inv i
    some (mul rj.x i)

/-- `secp256k1_ellswift_xswiftec_frac_var`, ellswift/main_impl.h:24-132: (`*xn`, `*xd`) -/
def xswiftecFracVar (u t : α) : α × α :=
  let u1 := if normalizesToZero u then setInt 1 else u
  let s := sqr t
  let s := if normalizesToZero t then setInt 1 else s
  let l := sqr u1
  let g := mul l u1
  let g := addInt g curveB
  let p := add g s
  let s := if normalizesToZero p then mulInt s 4 else s
  let p := add g s
  let d := mul s l
  let d := mulInt d 3
  let l := sqr p
  let l := negate l 1
  let n := mul d u1
  let n := add n l
  if geXFracOnCurveVar n d then (n, d)
  else
    let l := mul ellC1 s
    let n := mul ellC2 g
    let n := add n l
    let n := mul n u1
    if geXFracOnCurveVar n p then (n, p)
    else
      let l := mul p u1
      let n := add n l
      (negate n 2, p)

/-- `secp256k1_ellswift_xswiftec_var`, ellswift/main_impl.h:135-140 -/
def xswiftecVar (u t : α) : α :=
  let f := xswiftecFracVar u t
  mul f.1 (invVar f.2)

/-- `secp256k1_ellswift_swiftec_var`, ellswift/main_impl.h:143-147; the return value of
`secp256k1_ge_set_xo_var` is ignored -/
def swiftecVar (u t : α) : Ge α := (geSetXoVar (xswiftecVar u t) (feIsOdd t)).1

/-- The end of `secp256k1_ellswift_xswiftec_inv_var`, ellswift/main_impl.h:289-302 -/
def xswiftecInvEnd (u s v : α) (c : ℕ) : α :=
  let m := (FeOps.sqrt s).1
  let m := if c &&& 5 = 0 ∨ c &&& 5 = 5 then negate m 1 else m
  let u := mul u (if c &&& 1 = 1 then ellC4 else ellC3)
  let u := add u v
  mul m u

/-- `secp256k1_ellswift_xswiftec_inv_var`, ellswift/main_impl.h:168-303: `*t`, `none` for return
value 0 -/
def xswiftecInvVar (x u : α) (c : ℕ) : Option α :=
  let x := normalizeWeak x
  let u := normalizeWeak u
  if c &&& 2 = 0 then
    let m := add x u
    let m := negate m 2
    if geXOnCurveVar m then none
    else
      let s := sqr m
      let s := negate s 1
      let m := mul u x
      let s := add s m
      let g := sqr u
      let g := mul g u
      let g := addInt g curveB
      let m := mul s g
      if !feIsSquareVar m then none
      else
        let s := invVar s
        let s := mul s g
        some (xswiftecInvEnd u s x c)
  else
    let m := negate u 1
    let s := add m x
    if !feIsSquareVar s then none
    else
      let g := sqr u
      let q := mul s g
      let q := mulInt q 3
      let g := mul g u
      let g := mulInt g 4
      let g := addInt g (4 * curveB)
      let q := add q g
      let q := mul q s
      let q := negate q 1
      if !feIsSquareVar q then none
      else
        let r := (FeOps.sqrt q).1
        if c &&& 1 = 1 ∧ normalizesToZero r then none
        else if normalizesToZero s then none
        else
          let v := invVar s
          let v := mul v r
          let v := add v m
          let v := half v
          some (xswiftecInvEnd u s v c)

/-- The loop of `secp256k1_ellswift_xelligatorswift_var`, ellswift/main_impl.h:344-366: (`u32`, `*t`).
The loop of the C code is unbounded; `none` means that the first `fuel` iterations found nothing. -/
def xelligatorswiftLoop (x : α) (hasher : Hash.Sha) :
    (fuel : ℕ) → List UInt8 → ℕ → UInt32 → Option (List UInt8 × α)
  | 0, _, _, _ => none
  | fuel + 1, branchHash, left, cnt =>
    let pool := ellPool hasher branchHash left cnt
    let left := pool.2.1 - 1
    let branch := ellBranch pool.1 left
    let u32 := ellswiftPrng hasher pool.2.2
    let u := feSetB32Mod u32
    match xswiftecInvVar x u branch with
    | some t => some (u32, t)
    | none => xelligatorswiftLoop x hasher fuel pool.1 left (pool.2.2 + 1)

/-- `secp256k1_ellswift_xelligatorswift_var`, ellswift/main_impl.h:333-367; `branch_hash` is
uninitialised at first. -/
def xelligatorswiftVar (fuel : ℕ) (x : α) (hasher : Hash.Sha) : Option (List UInt8 × α) :=
  xelligatorswiftLoop x hasher fuel [] 0 0

/-- `secp256k1_ellswift_elligatorswift_var`, ellswift/main_impl.h:375-382 -/
def elligatorswiftVar (fuel : ℕ) (p : Ge α) (hasher : Hash.Sha) : Option (List UInt8 × α) :=
  match xelligatorswiftVar fuel p.x hasher with
  | none => none
  | some r =>
    let t := FeOps.normalize r.2
    let t := if feIsOdd t != feIsOdd p.y then FeOps.normalize (negate t 1) else t
    some (r.1, t)

/-- Both halves of the output, ellswift/main_impl.h:426-427 and 480-481 -/
def ellswiftPut (ell64 : List UInt8) (r : List UInt8 × α) : List UInt8 :=
  put (put ell64 0 r.1) 32 (feGetB32 r.2)

/-- `secp256k1_ellswift_encode`, ellswift/main_impl.h:399-433.  Memory: `ell64`.  `none`: the search
takes more than `fuel` iterations.
`secp256k1_eckey_pubkey_serialize` normalizes both coordinates of `p` in place (eckey_impl.h:44-45). -/
def ellswiftEncode (α : Type) [FeOps α] [FeMem α]
    (fuel : ℕ) (ell64 pubkey rnd32 : Option (List UInt8)) :
    Option (Out (Option (List UInt8))) :=
  match ell64 with
  | none => some (.argFail none)
  | some ell =>
    match pubkey with
    | none => some (.argFail (some ell))
    | some pubkey =>
      match rnd32 with
      | none => some (.argFail (some ell))
      | some rnd =>
        let p := pubkeyLoad α pubkey
        if p.2 then
          let hash := shaMidstate Hash.uninit ellswiftEncodeMid
          let ser := eckeyPubkeySerialize p.1 (zeros 64) 0 true
          let hash := Hash.write hash (ser.1.take 64)
          let hash := Hash.write hash (rnd.take 32)
          let q : Ge α := ⟨FeOps.normalize p.1.x, FeOps.normalize p.1.y, p.1.infinity⟩
          match elligatorswiftVar fuel q hash with
          | none => none
          | some r => some ⟨1, 0, some (ellswiftPut ell r)⟩
        else some ⟨0, 1, some (put ell 0 (zeros 64))⟩

/-- `secp256k1_ellswift_create`, ellswift/main_impl.h:450-487.  Memory: `ell64` -/
def ellswiftCreate (ctx : Ctx α) (fuel : ℕ) (ell64 seckey32 auxrnd32 : Option (List UInt8)) :
    Option (Out (Option (List UInt8))) :=
  match ell64 with
  | none => some (.argFail none)
  | some ell =>
    let ell := put ell 0 (zeros 64)
    if !ecmultGenIsBuilt ctx.gen then some (.argFail (some ell))
    else
      match seckey32 with
      | none => some (.argFail (some ell))
      | some seckey =>
        let h := ecPubkeyCreateHelper ctx.gen seckey
        let p : Ge α :=
          { h.2.1 with x := FeOps.normalize h.2.1.x, y := FeOps.normalize h.2.1.y }
        match elligatorswiftVar fuel p (ellswiftCreateHasher seckey auxrnd32) with
        | none => none
        | some r => some ⟨cInt h.2.2, 0, some (memczero (ellswiftPut ell r) (!h.2.2))⟩

/-- `secp256k1_ellswift_decode`, ellswift/main_impl.h:489-502.  Memory: `pubkey` -/
def ellswiftDecode (α : Type) [FeOps α] [FeMem α]
    (pubkey ell64 : Option (List UInt8)) : Out (Option (List UInt8)) :=
  match pubkey with
  | none => .argFail none
  | some pubkey =>
    match ell64 with
    | none => .argFail (some pubkey)
    | some ell =>
      let u : α := feSetB32Mod ell
      let t : α := feSetB32Mod (ell.drop 32)
      let t := FeOps.normalize t
      let p := swiftecVar u t
      ⟨1, 0, some (pubkeySave p)⟩

/-- `secp256k1_ellswift_xdh`, ellswift/main_impl.h:551-590.  Memory: `output`.  The flag that
`secp256k1_scalar_set_b32` stores in `overflow` is overwritten at line 574.  When
`secp256k1_ecmult_const_xonly` is told that the coordinate is on the curve it returns 1 and sets `px`;
the model leaves `px` at 0 in the other case. -/
def ellswiftXdh (α : Type) [FeOps α] [FeMem α]
    (output ellA64 ellB64 seckey32 : Option (List UInt8)) (party : Int)
    (hashfp : Option EllswiftHash) : Out (Option (List UInt8)) :=
  match output with
  | none => .argFail none
  | some out =>
    match ellA64 with
    | none => .argFail (some out)
    | some a =>
      match ellB64 with
      | none => .argFail (some out)
      | some b =>
        match seckey32 with
        | none => .argFail (some out)
        | some seckey =>
          match hashfp with
          | none => .argFail (some out)
          | some hashfp =>
            let theirs := if party ≠ 0 then a else b
            let u : α := feSetB32Mod theirs
            let t := feSetB32Mod (theirs.drop 32)
            let x := xswiftecFracVar u t
            let s := (scSetB32 seckey).1
            let overflow := scIsZero s
            let s := scCmov s 1 overflow
            let px := (ecmultConstXonly x.1 (some x.2) s true).getD (setInt 0)
            let sx := feGetB32 (FeOps.normalize px)
            let r := hashfp out sx a b
            ⟨cInt (r.1 ≠ 0 && !overflow), 0, some r.2⟩

end Secp.Model.Limb
