import Verif.Model.FeMem
import Verif.Model.ApiEcdsa
import Verif.Model.Ecdh
import Verif.Model.Schnorr
import Verif.Model.Context

/-!
# The code above the field, over any field implementation

The definitions repeat those of the same names in `Secp.Model` (`Verif/Model/Objects.lean`, `GroupX.lean`,
`ApiKey.lean`, `Ecdsa.lean`, `ApiEcdsa.lean`, `Ecdh.lean`, `Extrakeys.lean`, `Schnorr.lean`, `Context.lean`), with the field
elements in limbs (`α`) in place of values (`Fp`) and every call of `field.h` as the C code makes it.
Functions without field elements are those of `Secp.Model`.  An argument `(α : Type)` picks the field
implementation where the other arguments do not tell it.
-/

namespace Secp.Model.Limb

open Spec (beNat beBytes leNat leBytes)
open FeOps

variable {α : Type} [FeOps α] [FeMem α]

/-! ### Names for the interface -/

/-- `secp256k1_fe_is_odd`, field.h:164 -/
def feIsOdd (a : α) : Bool := FeMem.isOdd a

/-- `secp256k1_fe_is_zero`, field.h:157 -/
def feIsZero (a : α) : Bool := FeMem.isZero a

/-- `secp256k1_fe_cmp_var`, field.h:180 -/
def feCmpVar (a b : α) : Int := FeMem.cmpVar a b

/-- `secp256k1_fe_set_b32_mod`, field.h:188 -/
def feSetB32Mod (b : List UInt8) : α := FeMem.setB32Mod b

/-- `secp256k1_fe_set_b32_limit`, field.h:196 -/
def feSetB32Limit (b : List UInt8) : α × Bool := FeMem.setB32Limit b

/-- `secp256k1_fe_get_b32`, field.h:202 -/
def feGetB32 (a : α) : List UInt8 := FeMem.getB32 a

/-! ### Points -/

/-- `secp256k1_ge_set_xo_var`, group_impl.h:347-365: (`r`, return value). -/
def geSetXoVar (x : α) (odd : Bool) : Ge α × Bool :=
  let x2 := sqr x
  let x3 := mul x x2
  let x3 := addInt x3 curveB
  let s := sqrt x3
  let y := FeOps.normalize s.1
  let y := if feIsOdd y != odd then negate y 1 else y
  (⟨x, y, false⟩, s.2)

/-- `secp256k1_ge_to_bytes`, group_impl.h:975-985, with `secp256k1_ge_to_storage`, group_impl.h:877-888 -/
def geToBytes (a : Ge α) : List UInt8 :=
  FeMem.toMem (FeOps.normalize a.x) ++ FeMem.toMem (FeOps.normalize a.y)

/-- `secp256k1_ge_from_bytes`, group_impl.h:987-993, with `secp256k1_ge_from_storage`, group_impl.h:890-896 -/
def geFromBytes (α : Type) [FeOps α] [FeMem α] (b : List UInt8) : Ge α :=
  ⟨FeMem.fromMem (b.take 32), FeMem.fromMem ((b.drop 32).take 32), false⟩

/-- `secp256k1_pubkey_load`, secp256k1.c:240-244: the point and the return value.  A return value 0
comes with one call of the illegal callback. -/
def pubkeyLoad (α : Type) [FeOps α] [FeMem α] (pubkey : List UInt8) : Ge α × Bool :=
  let ge := geFromBytes α pubkey
  (ge, !feIsZero ge.x)

/-- `struct secp256k1_context_struct`, secp256k1.c:61-66 -/
structure Ctx (α : Type) where
  gen : GenCtxOf α
  illegalCallback : Callback
  errorCallback : Callback
  declassify : Bool

/-- `secp256k1_ecdsa_const_order_as_fe`, ecdsa_impl.h:22-25 -/
def ecdsaOrderAsFe : α := feConst 0xFFFFFFFFFFFFFFFFFFFFFFFFFFFFFFFEBAAEDCE6AF48A03BBFD25E8CD0364141

/-- `secp256k1_ecdsa_const_p_minus_order`, ecdsa_impl.h:32-34 -/
def ecdsaPMinusOrder : α := feConst 0x14551231950B75FC4402DA1722FC9BAEE

/-- `secp256k1_ecmult_gen_context_clear`, ecmult_gen_impl.h:26-31; `fe_clear`, `ge_clear` and
`scalar_clear` overwrite with zero bytes. -/
def ecmultGenContextClear (ctx : GenCtxOf α) : GenCtxOf α :=
  { ctx with built := false, scalarOffset := 0, geOffset := ⟨setInt 0, setInt 0, false⟩, projBlind := setInt 0 }

/-- `secp256k1_pubkey_save`, secp256k1.c:246-248 -/
def pubkeySave (ge : Ge α) : List UInt8 := geToBytes ge

/-- `secp256k1_ecmult_gen_blind`, ecmult_gen_impl.h:285-339; `none` is a NULL seed. -/
def ecmultGenBlind (ctx : GenCtxOf α) (seed : Option (List UInt8)) : GenCtxOf α :=
  match seed with
  | none => genBlindReset ctx
  | some seed32 =>
    let keydata := scGetB32 ctx.scalarOffset ++ seed32.take 32
    let rng := Hash.rngInitialize keydata
    let g1 := Hash.rngGenerate rng 32
    let g2 := Hash.rngGenerate g1.2 32
    genBlindApply ctx (genBlindFe (feSetB32Mod g1.1)) (genBlindScalar (scSetB32 g2.1).1)

/-- `secp256k1_ecmult_gen_context_build`, ecmult_gen_impl.h:17-20; every other field is set by
the reset. -/
def ecmultGenContextBuild (ctx : GenCtxOf α) : GenCtxOf α :=
  { ecmultGenBlind ctx none with built := true }

/-- `secp256k1_ecmult_gen_context_is_built`, ecmult_gen_impl.h:22-24 -/
def ecmultGenIsBuilt (ctx : GenCtxOf α) : Bool := ctx.built

/-- `secp256k1_eckey_pubkey_parse`, eckey_impl.h:18-36: the point and the return value. -/
def eckeyPubkeyParse (α : Type) [FeOps α] [FeMem α]
    (pub : List UInt8) : Ge α × Bool :=
  let b0 := pub.headD 0
  if pub.length = 33 ∧ (b0 = tagEven ∨ b0 = tagOdd) then
    let x := feSetB32Limit (pub.drop 1)
    if x.2 then geSetXoVar x.1 (b0 == tagOdd) else (geGarbage, false)
  else if pub.length = 65 ∧ (b0 = tagUncompressed ∨ b0 = tagHybridEven ∨ b0 = tagHybridOdd) then
    let x := feSetB32Limit (pub.drop 1)
    let y := feSetB32Limit (pub.drop 33)
    if !x.2 || !y.2 then (geGarbage, false)
    else
      let elem := geSetXY x.1 y.1
      if (b0 = tagHybridEven ∨ b0 = tagHybridOdd) ∧ feIsOdd y.1 ≠ (b0 == tagHybridOdd) then
        (elem, false)
      else (elem, geIsValidVar elem)
  else (geGarbage, false)

/-- `secp256k1_eckey_pubkey_serialize`, eckey_impl.h:38-56: the new contents of `pub`, `*size` and
the return value. -/
def eckeyPubkeySerialize (elem : Ge α) (pub : List UInt8) (size : Nat) (compressed : Bool) :
    List UInt8 × Nat × Bool :=
  if elem.infinity then (pub, size, false)
  else
    let x := FeOps.normalize elem.x
    let y := FeOps.normalize elem.y
    let pub := put pub 1 (feGetB32 x)
    if compressed then
      (put pub 0 [if feIsOdd y then tagOdd else tagEven], 33, true)
    else
      let pub := put pub 0 [tagUncompressed]
      (put pub 33 (feGetB32 y), 65, true)

/-- `secp256k1_ge_is_in_correct_subgroup`, group_impl.h:924-946 -/
def geIsInCorrectSubgroup (_ : Ge α) : Bool := true

/-- `secp256k1_ec_pubkey_parse`, secp256k1.c:250-266 -/
def ecPubkeyParse (α : Type) [FeOps α] [FeMem α]
    (pubkey : Option (List UInt8)) (input : Option (List UInt8)) :
    Out (Option (List UInt8)) :=
  match pubkey with
  | none => .argFail none
  | some _ =>
    let pubkey := zeros 64
    match input with
    | none => .argFail (some pubkey)
    | some input =>
      let q := eckeyPubkeyParse α input
      if !q.2 then ⟨0, 0, some pubkey⟩
      else if !geIsInCorrectSubgroup q.1 then ⟨0, 0, some pubkey⟩
      else ⟨1, 0, some (pubkeySave q.1)⟩

/-- `secp256k1_ec_pubkey_serialize`, secp256k1.c:268-289.  Memory: `output`, `*outputlen`. -/
def ecPubkeySerialize (α : Type) [FeOps α] [FeMem α]
    (output : Option (List UInt8)) (outputlen : Option Nat)
    (pubkey : Option (List UInt8)) (flags : UInt32) : Out (Option (List UInt8) × Option Nat) :=
  match outputlen with
  | none => .argFail (output, none)
  | some len =>
    if ¬ len ≥ (if flags &&& flagsBitCompression ≠ 0 then 33 else 65) then
      .argFail (output, some len)
    else
      match output with
      | none => .argFail (none, some 0)
      | some out =>
        let out := put out 0 (zeros len)
        match pubkey with
        | none => .argFail (some out, some 0)
        | some pubkey =>
          if flags &&& flagsTypeMask ≠ flagsTypeCompression then .argFail (some out, some 0)
          else
            let q := pubkeyLoad α pubkey
            if q.2 then
              let r := eckeyPubkeySerialize q.1 out len (flags &&& flagsBitCompression ≠ 0)
              if r.2.2 then ⟨1, 0, (some r.1, some r.2.1)⟩ else ⟨0, 0, (some r.1, some 0)⟩
            else ⟨0, 1, (some out, some 0)⟩

/-- One round of the loop in `secp256k1_ec_pubkey_cmp`, secp256k1.c:298-313: the 33 bytes and the
number of callback calls.  `out[i]` is uninitialised memory, here zero. -/
def ecPubkeyCmpKey (α : Type) [FeOps α] [FeMem α]
    (pk : Option (List UInt8)) : List UInt8 × Nat :=
  let r := ecPubkeySerialize α (some (zeros 33)) (some 33) pk ecCompressed
  if r.ret = 0 then (zeros 33, r.illegal) else (r.val.1.getD [], r.illegal)

/-- `secp256k1_ec_pubkey_cmp`, secp256k1.c:291-315 -/
def ecPubkeyCmp (α : Type) [FeOps α] [FeMem α]
    (pubkey0 pubkey1 : Option (List UInt8)) : Out Unit :=
  let a := ecPubkeyCmpKey α pubkey0
  let b := ecPubkeyCmpKey α pubkey1
  ⟨memcmpVar a.1 b.1 33, a.2 + b.2, ()⟩

/-- `secp256k1_ec_pubkey_create_helper`, secp256k1.c:591-602: (`*seckey_scalar`, `*p`, return
value). -/
def ecPubkeyCreateHelper (gen : GenCtxOf α) (seckey : List UInt8) : Fn × Ge α × Bool :=
  let s := scSetB32Seckey seckey
  let sc := scCmov s.1 1 (!s.2)
  (sc, geSetGej (ecmultGen gen sc), s.2)

/-- `secp256k1_ec_pubkey_create`, secp256k1.c:604-620 -/
def ecPubkeyCreate (ctx : Ctx α) (pubkey : Option (List UInt8)) (seckey : Option (List UInt8)) :
    Out (Option (List UInt8)) :=
  match pubkey with
  | none => .argFail none
  | some _ =>
    if !ecmultGenIsBuilt ctx.gen then .argFail (some (zeros 64))
    else
      match seckey with
      | none => .argFail (some (zeros 64))
      | some seckey =>
        let h := ecPubkeyCreateHelper ctx.gen seckey
        ⟨cInt h.2.2, 0, some (memczero (pubkeySave h.2.1) (!h.2.2))⟩

/-- `secp256k1_ec_pubkey_negate`, secp256k1.c:637-650.  Memory: `pubkey`. -/
def ecPubkeyNegate (α : Type) [FeOps α] [FeMem α]
    (pubkey : Option (List UInt8)) : Out (Option (List UInt8)) :=
  match pubkey with
  | none => .argFail none
  | some pubkey =>
    let q := pubkeyLoad α pubkey
    if q.2 then ⟨1, 0, some (pubkeySave (geNeg q.1))⟩ else ⟨0, 1, some (zeros 64)⟩

/-- `secp256k1_eckey_pubkey_tweak_add`, eckey_impl.h:63-73: the new key and the return value. -/
def eckeyPubkeyTweakAdd (key : Ge α) (tweak : Fn) : Ge α × Bool :=
  let pt := ecmult (gejSetGe key) 1 (some tweak)
  if pt.infinity then (key, false) else (geSetGej pt, true)

/-- `secp256k1_ec_pubkey_tweak_add_helper`, secp256k1.c:680-685 -/
def ecPubkeyTweakAddHelper (p : Ge α) (tweak32 : List UInt8) : Ge α × Bool :=
  let term := scSetB32 tweak32
  if !term.2 then eckeyPubkeyTweakAdd p term.1 else (p, false)

/-- `secp256k1_ec_pubkey_tweak_add`, secp256k1.c:687-702.  Memory: `pubkey`. -/
def ecPubkeyTweakAdd (α : Type) [FeOps α] [FeMem α]
    (pubkey tweak32 : Option (List UInt8)) : Out (Option (List UInt8)) :=
  match pubkey with
  | none => .argFail none
  | some pubkey =>
    match tweak32 with
    | none => .argFail (some pubkey)
    | some tweak32 =>
      let q := pubkeyLoad α pubkey
      if q.2 then
        let h := ecPubkeyTweakAddHelper q.1 tweak32
        if h.2 then ⟨1, 0, some (pubkeySave h.1)⟩ else ⟨0, 0, some (zeros 64)⟩
      else ⟨0, 1, some (zeros 64)⟩

/-- `secp256k1_eckey_pubkey_tweak_mul`, eckey_impl.h:83-93 -/
def eckeyPubkeyTweakMul (key : Ge α) (tweak : Fn) : Ge α × Bool :=
  if scIsZero tweak then (key, false)
  else (geSetGej (ecmult (gejSetGe key) tweak (some 0)), true)

/-- `secp256k1_ec_pubkey_tweak_mul`, secp256k1.c:724-745.  Memory: `pubkey`. -/
def ecPubkeyTweakMul (α : Type) [FeOps α] [FeMem α]
    (pubkey tweak32 : Option (List UInt8)) : Out (Option (List UInt8)) :=
  match pubkey with
  | none => .argFail none
  | some pubkey =>
    match tweak32 with
    | none => .argFail (some pubkey)
    | some tweak32 =>
      let factor := scSetB32 tweak32
      if !factor.2 then
        let q := pubkeyLoad α pubkey
        if q.2 then
          let m := eckeyPubkeyTweakMul q.1 factor.1
          if m.2 then ⟨1, 0, some (pubkeySave m.1)⟩ else ⟨0, 0, some (zeros 64)⟩
        else ⟨0, 1, some (zeros 64)⟩
      else ⟨0, 0, some (zeros 64)⟩

/-- The loop of `secp256k1_ec_pubkey_combine`, secp256k1.c:770-774: the sum and the number of
callback calls, or `none` with that number when a NULL entry ends the function. -/
def ecPubkeyCombineLoop (α : Type) [FeOps α] [FeMem α]
    : List (Option (List UInt8)) → Gej α → Nat → Option (Gej α) × Nat
  | [], qj, ill => (some qj, ill)
  | none :: _, _, ill => (none, ill + 1)
  | some pk :: rest, qj, ill =>
    let q := pubkeyLoad α pk
    ecPubkeyCombineLoop α rest (gejAddGe qj q.1) (if q.2 then ill else ill + 1)

/-- `secp256k1_ec_pubkey_combine`, secp256k1.c:757-781.  `pubnonces` is the array of `n` pointers. -/
def ecPubkeyCombine (α : Type) [FeOps α] [FeMem α]
    (pubnonce : Option (List UInt8)) (pubnonces : Option (List (Option (List UInt8))))
    (n : Nat) : Out (Option (List UInt8)) :=
  match pubnonce with
  | none => .argFail none
  | some _ =>
    if ¬ n ≥ 1 then .argFail (some (zeros 64))
    else
      match pubnonces with
      | none => .argFail (some (zeros 64))
      | some pks =>
        match ecPubkeyCombineLoop α (pks.take n) gejInfinity 0 with
        | (none, ill) => ⟨0, ill, some (zeros 64)⟩
        | (some qj, ill) =>
          if qj.infinity then ⟨0, ill, some (zeros 64)⟩
          else ⟨1, ill, some (pubkeySave (geSetGej qj))⟩

/-- `secp256k1_context_randomize`, secp256k1.c:747-755.  Memory: the context. -/
def contextRandomize (ctx : Ctx α) (seed32 : Option (List UInt8)) : Out (Ctx α) :=
  if !ecmultGenIsBuilt ctx.gen then .argFail ctx
  else if ecmultGenIsBuilt ctx.gen then
    ⟨1, 0, { ctx with gen := ecmultGenBlind ctx.gen seed32 }⟩
  else ⟨1, 0, ctx⟩

/-- `secp256k1_ecdsa_sig_verify`, ecdsa_impl.h:195-264.  The scalar inverse is the inverse modulo
`n` (0 for 0); the code that computes it is the subject of C46. -/
def ecdsaSigVerify (sigr sigs : Fn) (pubkey : Ge α) (message : Fn) : Bool :=
  if scIsZero sigr || scIsZero sigs then false
  else
    let sn := sigs⁻¹
    let u1 := sn * message
    let u2 := sn * sigr
    let pr := ecmult (gejSetGe pubkey) u2 (some u1)
    if pr.infinity then false
    else
      let xr := (feSetB32Limit (scGetB32 sigr)).1
      if gejEqXVar xr pr then true
      else if feCmpVar xr ecdsaPMinusOrder ≥ 0 then false
      else gejEqXVar (FeOps.add xr ecdsaOrderAsFe) pr

/-- `secp256k1_ecdsa_sig_sign`, ecdsa_impl.h:266-302.  `recid` is computed whether or not the caller
asked for it. -/
def ecdsaSigSign (gen : GenCtxOf α) (seckey message nonce : Fn) : SigOut :=
  let rp := ecmultGen gen nonce
  let r := geSetGej rp
  let b := feGetB32 (FeOps.normalize r.x)
  let set := scSetB32 b
  let sigr := set.1
  let recid := (if set.2 then 2 else 0) ||| (if feIsOdd (FeOps.normalize r.y) then 1 else 0)
  let m := sigr * seckey
  let m := m + message
  let sigs := nonce⁻¹
  let sigs := sigs * m
  let high := scIsHigh sigs
  let sigs := scCondNegate sigs high
  let recid := recid ^^^ (if high then 1 else 0)
  ⟨sigr, sigs, recid, !scIsZero sigr && !scIsZero sigs⟩

/-- `secp256k1_ecdsa_verify`, secp256k1.c:450-464 -/
def ecdsaVerify (α : Type) [FeOps α] [FeMem α]
    (sig msghash32 pubkey : Option (List UInt8)) : Out Unit :=
  match msghash32 with
  | none => .argFail ()
  | some msghash32 =>
    match sig with
    | none => .argFail ()
    | some sig =>
      match pubkey with
      | none => .argFail ()
      | some pubkey =>
        let m := scSetB32 msghash32
        let rs := signatureLoad sig
        if scIsHigh rs.2 then ⟨0, 0, ()⟩
        else
          let q := pubkeyLoad α pubkey
          if q.2 then ⟨cInt (ecdsaSigVerify rs.1 rs.2 q.1 m.1), 0, ()⟩
          else ⟨0, 1, ()⟩

/-- The loop of `secp256k1_ecdsa_sign_inner`, secp256k1.c:530-549, from call number `i` on, where
`count = i mod 2^32`.  `none`: not finished within `fuel` rounds. -/
def signLoop (gen : GenCtxOf α) (noncefp : NonceFn) (msg32 seckey : List UInt8)
    (noncedata : Option (List UInt8)) (sec msg : Fn) : Nat → Nat → SignSt → Option SignSt
  | 0, _, _ => none
  | fuel + 1, i, st =>
    match noncefp i msg32 seckey none noncedata (UInt32.ofNat i) with
    | none => none
    | some (ret, nonce32) =>
      if ret = 0 then some { st with ret := false }
      else
        let non := scSetB32Seckey nonce32
        if non.2 then
          let o := ecdsaSigSign gen sec msg non.1
          if o.ret then some ⟨o.r, o.s, o.recid, true⟩
          else signLoop gen noncefp msg32 seckey noncedata sec msg fuel (i + 1)
            ⟨o.r, o.s, o.recid, false⟩
        else signLoop gen noncefp msg32 seckey noncedata sec msg fuel (i + 1) st

/-- `secp256k1_ecdsa_sign_inner`, secp256k1.c:510-564 -/
def ecdsaSignInner (fuel : Nat) (ctx : Ctx α) (msg32 seckey : List UInt8) (noncefp : Option NonceFn)
    (noncedata : Option (List UInt8)) : Option SignSt :=
  let s := scSetB32Seckey seckey
  let sec := scCmov s.1 1 (!s.2)
  let msg := scSetB32 msg32
  match signLoop ctx.gen (nonceFnOrDefault noncefp) msg32 seckey noncedata sec msg.1 fuel 0
    ⟨0, 0, 0, false⟩ with
  | none => none
  | some st =>
    let ret := st.ret && s.2
    some ⟨scCmov st.r 0 (!ret), scCmov st.s 0 (!ret), if !ret then 0 else st.recid, ret⟩

/-- `secp256k1_ecdsa_sign`, secp256k1.c:566-578.  Memory: `signature`. -/
def ecdsaSign (fuel : Nat) (ctx : Ctx α) (signature msghash32 seckey : Option (List UInt8))
    (noncefp : Option NonceFn) (noncedata : Option (List UInt8)) :
    Option (Out (Option (List UInt8))) :=
  if !ecmultGenIsBuilt ctx.gen then some (.argFail signature)
  else
    match msghash32 with
    | none => some (.argFail signature)
    | some msghash32 =>
      match signature with
      | none => some (.argFail none)
      | some old =>
        match seckey with
        | none => some (.argFail (some old))
        | some seckey =>
          match ecdsaSignInner fuel ctx msghash32 seckey noncefp noncedata with
          | none => none
          | some st => some ⟨cInt st.ret, 0, some (signatureSave st.r st.s)⟩

/-- The x coordinate that `secp256k1_ecdsa_sig_recover` tries, recovery/main_impl.h:100-110; `none`
if it is too large. -/
def recoverX (α : Type) [FeOps α] [FeMem α]
    (sigr : Fn) (recid : Nat) : Option α :=
  let fx := (feSetB32Limit (scGetB32 sigr)).1
  if recid &&& 2 ≠ 0 then
    if feCmpVar fx ecdsaPMinusOrder ≥ 0 then none else some (FeOps.add fx ecdsaOrderAsFe)
  else some fx

/-- `secp256k1_ecdsa_sig_recover`, recovery/main_impl.h:87-121: the key, if it returns 1. -/
def ecdsaSigRecover (α : Type) [FeOps α] [FeMem α]
    (sigr sigs message : Fn) (recid : Nat) : Option (Ge α) :=
  if scIsZero sigr || scIsZero sigs then none
  else
    match recoverX α sigr recid with
    | none => none
    | some fx =>
      let x := geSetXoVar fx (recid &&& 1 ≠ 0)
      if !x.2 then none
      else
        let rn := sigr⁻¹
        let u1 := rn * message
        let u1 := -u1
        let u2 := rn * sigs
        let qj := ecmult (gejSetGe x.1) u2 (some u1)
        if !qj.infinity then some (geSetGej qj) else none

/-- `secp256k1_ecdsa_sign_recoverable`, recovery/main_impl.h:123-135.  Memory: `signature`. -/
def ecdsaSignRecoverable (fuel : Nat) (ctx : Ctx α) (signature msghash32 seckey : Option (List UInt8))
    (noncefp : Option NonceFn) (noncedata : Option (List UInt8)) :
    Option (Out (Option (List UInt8))) :=
  if !ecmultGenIsBuilt ctx.gen then some (.argFail signature)
  else
    match msghash32 with
    | none => some (.argFail signature)
    | some msghash32 =>
      match signature with
      | none => some (.argFail none)
      | some old =>
        match seckey with
        | none => some (.argFail (some old))
        | some seckey =>
          match ecdsaSignInner fuel ctx msghash32 seckey noncefp noncedata with
          | none => none
          | some st => some ⟨cInt st.ret, 0, some (recoverableSave st.r st.s st.recid)⟩

/-- `secp256k1_ecdsa_recover`, recovery/main_impl.h:137-157.  Memory: `pubkey`. -/
def ecdsaRecover (α : Type) [FeOps α] [FeMem α]
    (pubkey signature msghash32 : Option (List UInt8)) : Out (Option (List UInt8)) :=
  match msghash32 with
  | none => .argFail pubkey
  | some msghash32 =>
    match signature with
    | none => .argFail pubkey
    | some signature =>
      match pubkey with
      | none => .argFail none
      | some _ =>
        let l := recoverableLoad signature
        let m := scSetB32 msghash32
        match ecdsaSigRecover α l.1 l.2.1 m.1 l.2.2 with
        | some q => ⟨1, 0, some (pubkeySave q)⟩
        | none => ⟨0, 0, some (zeros 64)⟩

/-- `secp256k1_ecdh`, ecdh/main_impl.h:30-72.  Memory: `output`.  The return value of
`secp256k1_pubkey_load` is ignored; an invalid object only calls the callback. -/
def ecdh (α : Type) [FeOps α] [FeMem α]
    (output point scalar : Option (List UInt8)) (hashfp : Option EcdhHash) :
    Out (Option (List UInt8)) :=
  match output with
  | none => .argFail none
  | some out =>
    match point with
    | none => .argFail (some out)
    | some point =>
      match scalar with
      | none => .argFail (some out)
      | some scalar =>
        let q := pubkeyLoad α point
        let s := scSetB32 scalar
        let overflow := s.2 || scIsZero s.1
        let sc := scCmov s.1 1 overflow
        let res := ecmultConst q.1 sc
        let pt := geSetGej res
        let x := feGetB32 (FeOps.normalize pt.x)
        let y := feGetB32 (FeOps.normalize pt.y)
        let r := ecdhHashOrDefault hashfp out x y
        ⟨cInt (r.1 ≠ 0 && !overflow), if q.2 then 0 else 1, some r.2⟩

/-- `secp256k1_xonly_pubkey_parse`, extrakeys/main_impl.h:22-42 -/
def xonlyPubkeyParse (α : Type) [FeOps α] [FeMem α]
    (pubkey input32 : Option (List UInt8)) : Out (Option (List UInt8)) :=
  match pubkey with
  | none => .argFail none
  | some _ =>
    match input32 with
    | none => .argFail (some (zeros 64))
    | some input32 =>
      let x : α × Bool := feSetB32Limit input32
      if !x.2 then ⟨0, 0, some (zeros 64)⟩
      else
        let pk := geSetXoVar x.1 false
        if !pk.2 then ⟨0, 0, some (zeros 64)⟩
        else if !geIsInCorrectSubgroup pk.1 then ⟨0, 0, some (zeros 64)⟩
        else ⟨1, 0, some (pubkeySave pk.1)⟩

/-- `secp256k1_xonly_pubkey_serialize`, extrakeys/main_impl.h:44-57.  Memory: `output32`. -/
def xonlyPubkeySerialize (α : Type) [FeOps α] [FeMem α]
    (output32 pubkey : Option (List UInt8)) : Out (Option (List UInt8)) :=
  match output32 with
  | none => .argFail none
  | some out =>
    let out := put out 0 (zeros 32)
    match pubkey with
    | none => .argFail (some out)
    | some pubkey =>
      let pk := pubkeyLoad α pubkey
      if !pk.2 then ⟨0, 1, some out⟩
      else ⟨1, 0, some (put out 0 (feGetB32 pk.1.x))⟩

/-- One round of the loop of `secp256k1_xonly_pubkey_cmp`, extrakeys/main_impl.h:66-81. -/
def xonlyCmpKey (α : Type) [FeOps α] [FeMem α]
    (pk : Option (List UInt8)) : List UInt8 × Nat :=
  let r := xonlyPubkeySerialize α (some (zeros 32)) pk
  if r.ret = 0 then (zeros 32, r.illegal) else (r.val.getD [], r.illegal)

/-- `secp256k1_xonly_pubkey_cmp`, extrakeys/main_impl.h:59-83 -/
def xonlyPubkeyCmp (α : Type) [FeOps α] [FeMem α]
    (pk0 pk1 : Option (List UInt8)) : Out Unit :=
  let a := xonlyCmpKey α pk0
  let b := xonlyCmpKey α pk1
  ⟨memcmpVar a.1 b.1 32, a.2 + b.2, ()⟩

/-- `secp256k1_extrakeys_ge_even_y`, extrakeys/main_impl.h:88-97: the new point and the parity. -/
def geEvenY (r : Ge α) : Ge α × Int :=
  if feIsOdd r.y then ({ r with y := negate r.y 1 }, 1) else (r, 0)

/-- `secp256k1_xonly_pubkey_from_pubkey`, extrakeys/main_impl.h:99-116.  Memory: `xonly_pubkey`,
`*pk_parity`. -/
def xonlyPubkeyFromPubkey (α : Type) [FeOps α] [FeMem α]
    (xonlyPubkey : Option (List UInt8)) (pkParity : Option Int)
    (pubkey : Option (List UInt8)) : Out (Option (List UInt8) × Option Int) :=
  match xonlyPubkey with
  | none => .argFail (none, pkParity)
  | some old =>
    match pubkey with
    | none => .argFail (some old, pkParity)
    | some pubkey =>
      let pk := pubkeyLoad α pubkey
      if !pk.2 then ⟨0, 1, (some old, pkParity)⟩
      else
        let e := geEvenY pk.1
        ⟨1, 0, (some (pubkeySave e.1), pkParity.map fun _ => e.2)⟩

/-- `secp256k1_xonly_pubkey_tweak_add`, extrakeys/main_impl.h:118-133.  Memory: `output_pubkey`. -/
def xonlyPubkeyTweakAdd (α : Type) [FeOps α] [FeMem α]
    (outputPubkey internalPubkey tweak32 : Option (List UInt8)) :
    Out (Option (List UInt8)) :=
  match outputPubkey with
  | none => .argFail none
  | some _ =>
    match internalPubkey with
    | none => .argFail (some (zeros 64))
    | some internalPubkey =>
      match tweak32 with
      | none => .argFail (some (zeros 64))
      | some tweak32 =>
        let pk := pubkeyLoad α internalPubkey
        if !pk.2 then ⟨0, 1, some (zeros 64)⟩
        else
          let t := ecPubkeyTweakAddHelper pk.1 tweak32
          if !t.2 then ⟨0, 0, some (zeros 64)⟩
          else ⟨1, 0, some (pubkeySave t.1)⟩

/-- `secp256k1_xonly_pubkey_tweak_add_check`, extrakeys/main_impl.h:135-154 -/
def xonlyPubkeyTweakAddCheck (α : Type) [FeOps α] [FeMem α]
    (tweakedPubkey32 : Option (List UInt8)) (tweakedPkParity : Int)
    (internalPubkey tweak32 : Option (List UInt8)) : Out Unit :=
  match internalPubkey with
  | none => .argFail ()
  | some internalPubkey =>
    match tweakedPubkey32 with
    | none => .argFail ()
    | some tweakedPubkey32 =>
      match tweak32 with
      | none => .argFail ()
      | some tweak32 =>
        let pk := pubkeyLoad α internalPubkey
        if !pk.2 then ⟨0, 1, ()⟩
        else
          let t := ecPubkeyTweakAddHelper pk.1 tweak32
          if !t.2 then ⟨0, 0, ()⟩
          else
            let x := FeOps.normalize t.1.x
            let y := FeOps.normalize t.1.y
            ⟨cInt (memcmpVar (feGetB32 x) tweakedPubkey32 32 == 0 &&
              cInt (feIsOdd y) == tweakedPkParity), 0, ()⟩

/-- `secp256k1_keypair_save`, extrakeys/main_impl.h:156-159 -/
def keypairSave (sk : Fn) (pk : Ge α) : List UInt8 := scGetB32 sk ++ pubkeySave pk

/-- `secp256k1_keypair_load` with `sk` not NULL, extrakeys/main_impl.h:176-194: `*sk`, `*pk`, the return
value (the callback is called once iff it is false). -/
def keypairLoad (α : Type) [FeOps α] [FeMem α]
    (keypair : List UInt8) : Fn × Ge α × Bool :=
  let pk := pubkeyLoad α (keypair.drop 32)
  let sk := keypairSeckeyLoad keypair
  let ret := pk.2 && sk.2
  if !ret then (1, geConstG, false) else (sk.1, pk.1, true)

/-- `secp256k1_keypair_load` with `sk` NULL. -/
def keypairLoadPub (α : Type) [FeOps α] [FeMem α]
    (keypair : List UInt8) : Ge α × Bool :=
  let pk := pubkeyLoad α (keypair.drop 32)
  if !pk.2 then (geConstG, false) else (pk.1, true)

/-- `secp256k1_keypair_create`, extrakeys/main_impl.h:196-212.  Memory: `keypair`. -/
def keypairCreate (ctx : Ctx α) (keypair seckey32 : Option (List UInt8)) : Out (Option (List UInt8)) :=
  match keypair with
  | none => .argFail none
  | some _ =>
    if !ecmultGenIsBuilt ctx.gen then .argFail (some (zeros 96))
    else
      match seckey32 with
      | none => .argFail (some (zeros 96))
      | some seckey32 =>
        let h := ecPubkeyCreateHelper ctx.gen seckey32
        ⟨cInt h.2.2, 0, some (memczero (keypairSave h.1 h.2.1) (!h.2.2))⟩

/-- `secp256k1_keypair_xonly_pub`, extrakeys/main_impl.h:234-253.  Memory: `pubkey`, `*pk_parity`. -/
def keypairXonlyPub (α : Type) [FeOps α] [FeMem α]
    (pubkey : Option (List UInt8)) (pkParity : Option Int)
    (keypair : Option (List UInt8)) : Out (Option (List UInt8) × Option Int) :=
  match pubkey with
  | none => .argFail (none, pkParity)
  | some _ =>
    match keypair with
    | none => .argFail (some (zeros 64), pkParity)
    | some keypair =>
      let pk := keypairLoadPub α keypair
      if !pk.2 then ⟨0, 1, (some (zeros 64), pkParity)⟩
      else
        let e := geEvenY pk.1
        ⟨1, 0, (some (pubkeySave e.1), pkParity.map fun _ => e.2)⟩

/-- `secp256k1_keypair_xonly_tweak_add`, extrakeys/main_impl.h:255-283.  Memory: `keypair`. -/
def keypairXonlyTweakAdd (α : Type) [FeOps α] [FeMem α]
    (keypair tweak32 : Option (List UInt8)) : Out (Option (List UInt8)) :=
  match keypair with
  | none => .argFail none
  | some keypair =>
    match tweak32 with
    | none => .argFail (some keypair)
    | some tweak32 =>
      let l := keypairLoad α keypair
      let e := geEvenY l.2.1
      let sk := if e.2 = 1 then -l.1 else l.1
      let s := ecSeckeyTweakAddHelper sk tweak32
      let p := ecPubkeyTweakAddHelper e.1 tweak32
      let ret := l.2.2 && s.2 && p.2
      ⟨cInt ret, if l.2.2 then 0 else 1, some (if ret then keypairSave s.1 p.1 else zeros 96)⟩

/-- The body of `secp256k1_schnorrsig_sign_internal` after the argument checks,
schnorrsig/main_impl.h:157-197: the return value and the 64 bytes of the signature. -/
def schnorrsigSignCore (gen : GenCtxOf α) (msg keypair : List UInt8) (noncefp : NonceHardened)
    (ndata : Option (List UInt8)) : Bool × List UInt8 :=
  let l := keypairLoad α keypair
  let sk := if feIsOdd l.2.1.y then -l.1 else l.1
  let seckey := scGetB32 sk
  let pkBuf := feGetB32 l.2.1.x
  let nc := noncefp msg seckey pkBuf (some bip340Algo) ndata
  let k := (scSetB32 nc.2).1
  let ret := l.2.2 && decide (nc.1 ≠ 0) && !scIsZero k
  let k := scCmov k 1 (!ret)
  let r := geSetGej (ecmultGen gen k)
  let y := FeOps.normalize r.y
  let k := if feIsOdd y then -k else k
  let x := FeOps.normalize r.x
  let rx := feGetB32 x
  let e := schnorrsigChallenge rx msg pkBuf
  let e := e * sk
  let e := e + k
  (ret, memczero (rx ++ scGetB32 e) (!ret))

/-- `secp256k1_schnorrsig_sign_internal`, schnorrsig/main_impl.h:135-197.  Memory: `sig64`. -/
def schnorrsigSignInternal (ctx : Ctx α) (sig64 msg : Option (List UInt8)) (msglen : Nat)
    (keypair : Option (List UInt8)) (noncefp : Option NonceHardened) (ndata : Option (List UInt8)) :
    Out (Option (List UInt8)) :=
  if !ecmultGenIsBuilt ctx.gen then .argFail sig64
  else
    match sig64 with
    | none => .argFail none
    | some sig =>
      if msg = none ∧ msglen ≠ 0 then .argFail (some sig)
      else
        match keypair with
        | none => .argFail (some sig)
        | some keypair =>
          let r := schnorrsigSignCore ctx.gen (msgBytes msg msglen) keypair
            (noncefp.getD nonceFunctionBip340) ndata
          ⟨cInt r.1, if (keypairLoad α keypair).2.2 then 0 else 1, some (put sig 0 r.2)⟩

/-- `secp256k1_schnorrsig_sign32`, schnorrsig/main_impl.h:199-202 -/
def schnorrsigSign32 (ctx : Ctx α) (sig64 msg32 keypair auxRand32 : Option (List UInt8)) :
    Out (Option (List UInt8)) :=
  schnorrsigSignInternal ctx sig64 msg32 32 keypair (some nonceFunctionBip340) auxRand32

/-- `secp256k1_schnorrsig_sign_custom`, schnorrsig/main_impl.h:208-221 -/
def schnorrsigSignCustom (ctx : Ctx α) (sig64 msg : Option (List UInt8)) (msglen : Nat)
    (keypair : Option (List UInt8)) (extra : Option SchnorrExtra) : Out (Option (List UInt8)) :=
  match extra with
  | none => schnorrsigSignInternal ctx sig64 msg msglen keypair none none
  | some ex =>
    if memcmpVar ex.magic schnorrMagic 4 ≠ 0 then .argFail sig64
    else schnorrsigSignInternal ctx sig64 msg msglen keypair ex.noncefp ex.ndata

/-- The group part of `secp256k1_schnorrsig_verify`, schnorrsig/main_impl.h:252-269. -/
def schnorrsigVerifyPoint (rx : α) (s e : Fn) (pk : Ge α) : Bool :=
  let rj := ecmult (gejSetGe pk) (-e) (some s)
  let r := geSetGejVar rj
  if r.infinity then false
  else
    let y := FeOps.normalize r.y
    !feIsOdd y && FeOps.equal rx r.x

/-- `secp256k1_schnorrsig_verify`, schnorrsig/main_impl.h:223-269 -/
def schnorrsigVerify (α : Type) [FeOps α] [FeMem α]
    (sig64 msg : Option (List UInt8)) (msglen : Nat)
    (pubkey : Option (List UInt8)) : Out Unit :=
  match sig64 with
  | none => .argFail ()
  | some sig =>
    if msg = none ∧ msglen ≠ 0 then .argFail ()
    else
      match pubkey with
      | none => .argFail ()
      | some pubkey =>
        let rx := feSetB32Limit sig
        if !rx.2 then ⟨0, 0, ()⟩
        else
          let s := scSetB32 (sig.drop 32)
          if s.2 then ⟨0, 0, ()⟩
          else
            let pk := pubkeyLoad α pubkey
            if !pk.2 then ⟨0, 1, ()⟩
            else
              let e := schnorrsigChallenge sig (msgBytes msg msglen) (feGetB32 pk.1.x)
              ⟨cInt (schnorrsigVerifyPoint rx.1 s.1 e pk.1), 0, ()⟩

/-- `secp256k1_context_is_proper`, secp256k1.c:82-84 -/
def contextIsProper (ctx : Ctx α) : Bool := ecmultGenIsBuilt ctx.gen

/-- `secp256k1_context_preallocated_clone_size`, secp256k1.c:112-116 -/
def contextPreallocatedCloneSize (ctx : Ctx α) : Out Nat :=
  if !contextIsProper ctx then .argFail 0 else ⟨sizeofContext, 0, sizeofContext⟩

/-- `secp256k1_context_preallocated_create`, secp256k1.c:118-139, in caller memory (not NULL) with
contents `prealloc`: the new context, or `none` for a NULL result. -/
def contextPreallocatedCreate (prealloc : Ctx α) (flags : UInt32) : Out (Option (Ctx α)) :=
  let sz := contextPreallocatedSize flags
  if sz.val = 0 then ⟨0, sz.illegal, none⟩
  else
    ⟨1, sz.illegal,
      some ⟨ecmultGenContextBuild prealloc.gen, defaultCallback, defaultCallback,
        flags &&& flagsBitContextDeclassify ≠ 0⟩⟩

/-- `secp256k1_context_create`, secp256k1.c:141-150: with invalid flags the default illegal callback
is called twice.  Freshly allocated memory has the contents `junk`. -/
def contextCreate (junk : Ctx α) (flags : UInt32) : Out (Option (Ctx α)) :=
  let sz := contextPreallocatedSize flags
  let r := contextPreallocatedCreate junk flags
  ⟨r.ret, sz.illegal + r.illegal, r.val⟩

/-- `secp256k1_context_preallocated_clone`, secp256k1.c:152-161; `prealloc` says whether the pointer
is not NULL. -/
def contextPreallocatedClone (ctx : Ctx α) (prealloc : Bool) : Out (Option (Ctx α)) :=
  if !prealloc then .argFail none
  else if !contextIsProper ctx then .argFail none
  else ⟨1, 0, some ctx⟩

/-- `secp256k1_context_clone`, secp256k1.c:163-174 -/
def contextClone (ctx : Ctx α) : Out (Option (Ctx α)) :=
  if !contextIsProper ctx then .argFail none
  else
    let sz := contextPreallocatedCloneSize ctx
    let r := contextPreallocatedClone ctx true
    ⟨r.ret, sz.illegal + r.illegal, r.val⟩

/-- `secp256k1_context_preallocated_destroy`, secp256k1.c:176-185, with a non-NULL context. -/
def contextPreallocatedDestroy (ctx : Ctx α) : Out (Ctx α) :=
  if !contextIsProper ctx then .argFail ctx
  else ⟨0, 0, { ctx with gen := ecmultGenContextClear ctx.gen }⟩

/-- `secp256k1_context_destroy`, secp256k1.c:187-197, with a non-NULL context: `none` is freed
memory. -/
def contextDestroy (ctx : Ctx α) : Out (Option (Ctx α)) :=
  if !contextIsProper ctx then .argFail (some ctx)
  else
    let r := contextPreallocatedDestroy ctx
    ⟨r.ret, r.illegal, none⟩

/-- `secp256k1_context_set_illegal_callback`, secp256k1.c:199-209.  `isStatic` is the comparison of
the pointer with `secp256k1_context_static`; function 0 is NULL and also stands for the default
function. -/
def contextSetIllegalCallback (isStatic : Bool) (ctx : Ctx α) (fn data : Nat) : Out (Ctx α) :=
  if isStatic then .argFail ctx else ⟨0, 0, { ctx with illegalCallback := ⟨fn, data⟩ }⟩

/-- `secp256k1_context_set_error_callback`, secp256k1.c:211-221 -/
def contextSetErrorCallback (isStatic : Bool) (ctx : Ctx α) (fn data : Nat) : Out (Ctx α) :=
  if isStatic then .argFail ctx else ⟨0, 0, { ctx with errorCallback := ⟨fn, data⟩ }⟩

/-- The contexts a program can hold: made by `secp256k1_context_create` (or in caller memory) in a
build with any comb configuration (`CombCfg.Build`), then cloned, randomized with any seeds and given any
callbacks, any number of times and in any order. -/
inductive LiveCtx : Ctx α → Prop
  | create {junk ctx : Ctx α} {flags : UInt32}
      (hc : junk.gen.cfg.Build)
      (h : (contextCreate junk flags).val = some ctx) : LiveCtx ctx
  | preallocatedCreate {junk ctx : Ctx α} {flags : UInt32}
      (hc : junk.gen.cfg.Build)
      (h : (contextPreallocatedCreate junk flags).val = some ctx) : LiveCtx ctx
  | clone {ctx ctx' : Ctx α} (h : LiveCtx ctx) (e : (contextClone ctx).val = some ctx') : LiveCtx ctx'
  | preallocatedClone {ctx ctx' : Ctx α} (h : LiveCtx ctx)
      (e : (contextPreallocatedClone ctx true).val = some ctx') : LiveCtx ctx'
  | randomize {ctx : Ctx α} (h : LiveCtx ctx) (seed : Option (List UInt8)) :
      LiveCtx (contextRandomize ctx seed).val
  | setIllegal {ctx : Ctx α} (h : LiveCtx ctx) (fn data : Nat) :
      LiveCtx (contextSetIllegalCallback false ctx fn data).val
  | setError {ctx : Ctx α} (h : LiveCtx ctx) (fn data : Nat) :
      LiveCtx (contextSetErrorCallback false ctx fn data).val

end Secp.Model.Limb
