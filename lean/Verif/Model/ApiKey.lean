import Verif.Model.Objects

/-!
# Model of the key functions of `/repo/src/secp256k1.c` and `/repo/src/eckey_impl.h`

The context argument is passed to the functions that read it; the others use it only to reach the
illegal-argument callback (see `Out`).
-/

namespace Secp.Model

open Spec (beNat beBytes leNat leBytes)
open FeOps

/-- SECP256K1_TAG_PUBKEY_*, include/secp256k1.h:216-220 -/
def tagEven : UInt8 := 0x02
def tagOdd : UInt8 := 0x03
def tagUncompressed : UInt8 := 0x04
def tagHybridEven : UInt8 := 0x06
def tagHybridOdd : UInt8 := 0x07

/-- SECP256K1_FLAGS_*, include/secp256k1.h:191-213 -/
def flagsTypeMask : UInt32 := 0xff
def flagsTypeContext : UInt32 := 1
def flagsTypeCompression : UInt32 := 2
def flagsBitCompression : UInt32 := 0x100
def flagsBitContextDeclassify : UInt32 := 0x400
def ecCompressed : UInt32 := 0x102
def ecUncompressed : UInt32 := 2

/-- `secp256k1_eckey_pubkey_parse`, eckey_impl.h:18-36: the point and the return value. -/
def eckeyPubkeyParse (pub : List UInt8) : Ge Fp × Bool :=
  let b0 := pub.headD 0
  if pub.length = 33 ∧ (b0 = tagEven ∨ b0 = tagOdd) then
    let x := feSetB32Limit (pub.drop 1)
    if x.2 then geSetXoVar x.1 (b0 == tagOdd) else (geGarbage, false)
  else if pub.length = 65 ∧ (b0 = tagUncompressed ∨ b0 = tagHybridEven ∨ b0 = tagHybridOdd) then
    let x := feSetB32Limit (pub.drop 1)
    let y := feSetB32Limit (pub.drop 33)
    if !x.2 || !y.2 then (geGarbage, false)
    else
      let elem := geSetXY x.1 y.1
      if (b0 = tagHybridEven ∨ b0 = tagHybridOdd) ∧ feIsOdd y.1 ≠ (b0 == tagHybridOdd) then
        (elem, false)
      else (elem, geIsValidVar elem)
  else (geGarbage, false)

/-- `secp256k1_eckey_pubkey_serialize`, eckey_impl.h:38-56: the new contents of `pub`, `*size` and
the return value. -/
def eckeyPubkeySerialize (elem : Ge Fp) (pub : List UInt8) (size : Nat) (compressed : Bool) :
    List UInt8 × Nat × Bool :=
  if elem.infinity then (pub, size, false)
  else
    let x := FeOps.normalize elem.x
    let y := FeOps.normalize elem.y
    let pub := put pub 1 (feGetB32 x)
    if compressed then
      (put pub 0 [if feIsOdd y then tagOdd else tagEven], 33, true)
    else
      let pub := put pub 0 [tagUncompressed]
      (put pub 33 (feGetB32 y), 65, true)

/-- `secp256k1_ge_is_in_correct_subgroup`, group_impl.h:924-946 -/
def geIsInCorrectSubgroup (_ : Ge Fp) : Bool := true

/-- `secp256k1_ec_pubkey_parse`, secp256k1.c:250-266 -/
def ecPubkeyParse (pubkey : Option (List UInt8)) (input : Option (List UInt8)) :
    Out (Option (List UInt8)) :=
  match pubkey with
  | none => .argFail none
  | some _ =>
    let pubkey := zeros 64
    match input with
    | none => .argFail (some pubkey)
    | some input =>
      let q := eckeyPubkeyParse input
      if !q.2 then ⟨0, 0, some pubkey⟩
      else if !geIsInCorrectSubgroup q.1 then ⟨0, 0, some pubkey⟩
      else ⟨1, 0, some (pubkeySave q.1)⟩

/-- `secp256k1_ec_pubkey_serialize`, secp256k1.c:268-289.  Memory: `output`, `*outputlen`. -/
def ecPubkeySerialize (output : Option (List UInt8)) (outputlen : Option Nat)
    (pubkey : Option (List UInt8)) (flags : UInt32) : Out (Option (List UInt8) × Option Nat) :=
  match outputlen with
  | none => .argFail (output, none)
  | some len =>
    if ¬ len ≥ (if flags &&& flagsBitCompression ≠ 0 then 33 else 65) then
      .argFail (output, some len)
    else
      match output with
      | none => .argFail (none, some 0)
      | some out =>
        let out := put out 0 (zeros len)
        match pubkey with
        | none => .argFail (some out, some 0)
        | some pubkey =>
          if flags &&& flagsTypeMask ≠ flagsTypeCompression then .argFail (some out, some 0)
          else
            let q := pubkeyLoad pubkey
            if q.2 then
              let r := eckeyPubkeySerialize q.1 out len (flags &&& flagsBitCompression ≠ 0)
              if r.2.2 then ⟨1, 0, (some r.1, some r.2.1)⟩ else ⟨0, 0, (some r.1, some 0)⟩
            else ⟨0, 1, (some out, some 0)⟩

/-- One round of the loop in `secp256k1_ec_pubkey_cmp`, secp256k1.c:298-313: the 33 bytes and the
number of callback calls.  `out[i]` is uninitialised memory, here zero. -/
def ecPubkeyCmpKey (pk : Option (List UInt8)) : List UInt8 × Nat :=
  let r := ecPubkeySerialize (some (zeros 33)) (some 33) pk ecCompressed
  if r.ret = 0 then (zeros 33, r.illegal) else (r.val.1.getD [], r.illegal)

/-- `secp256k1_ec_pubkey_cmp`, secp256k1.c:291-315 -/
def ecPubkeyCmp (pubkey0 pubkey1 : Option (List UInt8)) : Out Unit :=
  let a := ecPubkeyCmpKey pubkey0
  let b := ecPubkeyCmpKey pubkey1
  ⟨memcmpVar a.1 b.1 33, a.2 + b.2, ()⟩

/-- `secp256k1_ec_seckey_verify`, secp256k1.c:580-589 -/
def ecSeckeyVerify (seckey : Option (List UInt8)) : Out Unit :=
  match seckey with
  | none => .argFail ()
  | some seckey => ⟨cInt (scSetB32Seckey seckey).2, 0, ()⟩

/-- `secp256k1_ec_pubkey_create_helper`, secp256k1.c:591-602: (`*seckey_scalar`, `*p`, return
value). -/
def ecPubkeyCreateHelper (gen : GenCtx) (seckey : List UInt8) : Fn × Ge Fp × Bool :=
  let s := scSetB32Seckey seckey
  let sc := scCmov s.1 1 (!s.2)
  (sc, geSetGej (ecmultGen gen sc), s.2)

/-- `secp256k1_ec_pubkey_create`, secp256k1.c:604-620 -/
def ecPubkeyCreate (ctx : Ctx) (pubkey : Option (List UInt8)) (seckey : Option (List UInt8)) :
    Out (Option (List UInt8)) :=
  match pubkey with
  | none => .argFail none
  | some _ =>
    if !ecmultGenIsBuilt ctx.gen then .argFail (some (zeros 64))
    else
      match seckey with
      | none => .argFail (some (zeros 64))
      | some seckey =>
        let h := ecPubkeyCreateHelper ctx.gen seckey
        ⟨cInt h.2.2, 0, some (memczero (pubkeySave h.2.1) (!h.2.2))⟩

/-- `secp256k1_ec_seckey_negate`, secp256k1.c:622-635.  Memory: `seckey`. -/
def ecSeckeyNegate (seckey : Option (List UInt8)) : Out (Option (List UInt8)) :=
  match seckey with
  | none => .argFail none
  | some seckey =>
    let s := scSetB32Seckey seckey
    let sec := scCmov s.1 0 (!s.2)
    let sec := -sec
    ⟨cInt s.2, 0, some (put seckey 0 (scGetB32 sec))⟩

/-- `secp256k1_ec_pubkey_negate`, secp256k1.c:637-650.  Memory: `pubkey`. -/
def ecPubkeyNegate (pubkey : Option (List UInt8)) : Out (Option (List UInt8)) :=
  match pubkey with
  | none => .argFail none
  | some pubkey =>
    let q := pubkeyLoad pubkey
    if q.2 then ⟨1, 0, some (pubkeySave (geNeg q.1))⟩ else ⟨0, 1, some (zeros 64)⟩

/-- `secp256k1_eckey_privkey_tweak_add`, eckey_impl.h:58-61: the new key and the return value. -/
def eckeyPrivkeyTweakAdd (key tweak : Fn) : Fn × Bool :=
  let key := key + tweak
  (key, !scIsZero key)

/-- `secp256k1_ec_seckey_tweak_add_helper`, secp256k1.c:653-662 -/
def ecSeckeyTweakAddHelper (sec : Fn) (tweak32 : List UInt8) : Fn × Bool :=
  let term := scSetB32 tweak32
  let r := eckeyPrivkeyTweakAdd sec term.1
  (r.1, !term.2 && r.2)

/-- `secp256k1_ec_seckey_tweak_add`, secp256k1.c:664-678.  Memory: `seckey`. -/
def ecSeckeyTweakAdd (seckey tweak32 : Option (List UInt8)) : Out (Option (List UInt8)) :=
  match seckey with
  | none => .argFail none
  | some seckey =>
    match tweak32 with
    | none => .argFail (some seckey)
    | some tweak32 =>
      let s := scSetB32Seckey seckey
      let h := ecSeckeyTweakAddHelper s.1 tweak32
      let ret := s.2 && h.2
      let sec := scCmov h.1 0 (!ret)
      ⟨cInt ret, 0, some (put seckey 0 (scGetB32 sec))⟩

/-- `secp256k1_eckey_pubkey_tweak_add`, eckey_impl.h:63-73: the new key and the return value. -/
def eckeyPubkeyTweakAdd (key : Ge Fp) (tweak : Fn) : Ge Fp × Bool :=
  let pt := ecmult (gejSetGe key) 1 (some tweak)
  if pt.infinity then (key, false) else (geSetGej pt, true)

/-- `secp256k1_ec_pubkey_tweak_add_helper`, secp256k1.c:680-685 -/
def ecPubkeyTweakAddHelper (p : Ge Fp) (tweak32 : List UInt8) : Ge Fp × Bool :=
  let term := scSetB32 tweak32
  if !term.2 then eckeyPubkeyTweakAdd p term.1 else (p, false)

/-- `secp256k1_ec_pubkey_tweak_add`, secp256k1.c:687-702.  Memory: `pubkey`. -/
def ecPubkeyTweakAdd (pubkey tweak32 : Option (List UInt8)) : Out (Option (List UInt8)) :=
  match pubkey with
  | none => .argFail none
  | some pubkey =>
    match tweak32 with
    | none => .argFail (some pubkey)
    | some tweak32 =>
      let q := pubkeyLoad pubkey
      if q.2 then
        let h := ecPubkeyTweakAddHelper q.1 tweak32
        if h.2 then ⟨1, 0, some (pubkeySave h.1)⟩ else ⟨0, 0, some (zeros 64)⟩
      else ⟨0, 1, some (zeros 64)⟩

/-- `secp256k1_eckey_privkey_tweak_mul`, eckey_impl.h:75-81: the new key and the return value. -/
def eckeyPrivkeyTweakMul (key tweak : Fn) : Fn × Bool := (key * tweak, !scIsZero tweak)

/-- `secp256k1_ec_seckey_tweak_mul`, secp256k1.c:704-722.  Memory: `seckey`. -/
def ecSeckeyTweakMul (seckey tweak32 : Option (List UInt8)) : Out (Option (List UInt8)) :=
  match seckey with
  | none => .argFail none
  | some seckey =>
    match tweak32 with
    | none => .argFail (some seckey)
    | some tweak32 =>
      let factor := scSetB32 tweak32
      let s := scSetB32Seckey seckey
      let m := eckeyPrivkeyTweakMul s.1 factor.1
      let ret := s.2 && (!factor.2 && m.2)
      let sec := scCmov m.1 0 (!ret)
      ⟨cInt ret, 0, some (put seckey 0 (scGetB32 sec))⟩

/-- `secp256k1_eckey_pubkey_tweak_mul`, eckey_impl.h:83-93 -/
def eckeyPubkeyTweakMul (key : Ge Fp) (tweak : Fn) : Ge Fp × Bool :=
  if scIsZero tweak then (key, false)
  else (geSetGej (ecmult (gejSetGe key) tweak (some 0)), true)

/-- `secp256k1_ec_pubkey_tweak_mul`, secp256k1.c:724-745.  Memory: `pubkey`. -/
def ecPubkeyTweakMul (pubkey tweak32 : Option (List UInt8)) : Out (Option (List UInt8)) :=
  match pubkey with
  | none => .argFail none
  | some pubkey =>
    match tweak32 with
    | none => .argFail (some pubkey)
    | some tweak32 =>
      let factor := scSetB32 tweak32
      if !factor.2 then
        let q := pubkeyLoad pubkey
        if q.2 then
          let m := eckeyPubkeyTweakMul q.1 factor.1
          if m.2 then ⟨1, 0, some (pubkeySave m.1)⟩ else ⟨0, 0, some (zeros 64)⟩
        else ⟨0, 1, some (zeros 64)⟩
      else ⟨0, 0, some (zeros 64)⟩

/-- The loop of `secp256k1_ec_pubkey_combine`, secp256k1.c:770-774: the sum and the number of
callback calls, or `none` with that number when a NULL entry ends the function. -/
def ecPubkeyCombineLoop : List (Option (List UInt8)) → Gej Fp → Nat → Option (Gej Fp) × Nat
  | [], qj, ill => (some qj, ill)
  | none :: _, _, ill => (none, ill + 1)
  | some pk :: rest, qj, ill =>
    let q := pubkeyLoad pk
    ecPubkeyCombineLoop rest (gejAddGe qj q.1) (if q.2 then ill else ill + 1)

/-- `secp256k1_ec_pubkey_combine`, secp256k1.c:757-781.  `pubnonces` is the array of `n` pointers. -/
def ecPubkeyCombine (pubnonce : Option (List UInt8)) (pubnonces : Option (List (Option (List UInt8))))
    (n : Nat) : Out (Option (List UInt8)) :=
  match pubnonce with
  | none => .argFail none
  | some _ =>
    if ¬ n ≥ 1 then .argFail (some (zeros 64))
    else
      match pubnonces with
      | none => .argFail (some (zeros 64))
      | some pks =>
        match ecPubkeyCombineLoop (pks.take n) gejInfinity 0 with
        | (none, ill) => ⟨0, ill, some (zeros 64)⟩
        | (some qj, ill) =>
          if qj.infinity then ⟨0, ill, some (zeros 64)⟩
          else ⟨1, ill, some (pubkeySave (geSetGej qj))⟩

/-- `secp256k1_context_randomize`, secp256k1.c:747-755.  Memory: the context. -/
def contextRandomize (ctx : Ctx) (seed32 : Option (List UInt8)) : Out Ctx :=
  if !ecmultGenIsBuilt ctx.gen then .argFail ctx
  else if ecmultGenIsBuilt ctx.gen then
    ⟨1, 0, { ctx with gen := ecmultGenBlind ctx.gen seed32 }⟩
  else ⟨1, 0, ctx⟩

end Secp.Model
