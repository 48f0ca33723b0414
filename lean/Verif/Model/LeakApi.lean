import Verif.Model.Leak
import Verif.Model.ApiEcdsa
import Verif.Model.Context
import Verif.Model.Ecdh
import Verif.Model.Ellswift
import Verif.Model.MusigSession
import Verif.Model.Schnorr

/-!
# What an observer of the execution sees: the functions of the API that handle secrets

See `Verif/Model/Leak.lean`.  Tests for NULL and the other tests of `ARG_CHECK` are branches too.
-/

namespace Secp.Leak

open Model (Ge Gej Ctx GenCtx zeros put cInt)
open Spec (leNat)

/-! ## Keys -/

/-- `secp256k1_context_randomize`, secp256k1.c:747-755 -/
def contextRandomize (ctx : Ctx) (seed32 : Option (List UInt8)) : Ct (Out Ctx) := do
  if ← branch (!Model.ecmultGenIsBuilt ctx.gen) then return .argFail ctx
  else if ← branch (Model.ecmultGenIsBuilt ctx.gen) then
    let gen ← ecmultGenBlind ctx.gen seed32
    return ⟨1, 0, { ctx with gen := gen }⟩
  else return ⟨1, 0, ctx⟩

/-- `secp256k1_ec_seckey_verify`, secp256k1.c:580-589 -/
def ecSeckeyVerify (seckey : Option (List UInt8)) : Ct (Out Unit) := do
  let _ ← branch seckey.isNone
  match seckey with
  | none => return .argFail ()
  | some seckey => return ⟨cInt (Model.scSetB32Seckey seckey).2, 0, ()⟩

/-- `secp256k1_ec_pubkey_create_helper`, secp256k1.c:591-602 -/
def ecPubkeyCreateHelper (gen : GenCtx) (seckey : List UInt8) : Ct (Fn × Ge Fp × Bool) := do
  let s := Model.scSetB32Seckey seckey
  let sc := Model.scCmov s.1 1 (!s.2)
  let pj ← ecmultGen gen sc
  return (sc, Model.geSetGej pj, s.2)

/-- `secp256k1_ec_pubkey_create`, secp256k1.c:604-620 -/
def ecPubkeyCreate (ctx : Ctx) (pubkey : Option (List UInt8)) (seckey : Option (List UInt8)) :
    Ct (Out (Option (List UInt8))) := do
  let _ ← branch pubkey.isNone
  match pubkey with
  | none => return .argFail none
  | some _ =>
    if ← branch (!Model.ecmultGenIsBuilt ctx.gen) then return .argFail (some (zeros 64))
    else
      let _ ← branch seckey.isNone
      match seckey with
      | none => return .argFail (some (zeros 64))
      | some seckey =>
        let h ← ecPubkeyCreateHelper ctx.gen seckey
        return ⟨cInt h.2.2, 0, some (Model.memczero (Model.pubkeySave h.2.1) (!h.2.2))⟩

/-- `secp256k1_ec_seckey_negate`, secp256k1.c:622-635 -/
def ecSeckeyNegate (seckey : Option (List UInt8)) : Ct (Out (Option (List UInt8))) := do
  let _ ← branch seckey.isNone
  match seckey with
  | none => return .argFail none
  | some seckey =>
    let s := Model.scSetB32Seckey seckey
    let sec := Model.scCmov s.1 0 (!s.2)
    let sec := -sec
    return ⟨cInt s.2, 0, some (put seckey 0 (Model.scGetB32 sec))⟩

/-- `secp256k1_ec_seckey_tweak_add`, secp256k1.c:664-678, with `secp256k1_ec_seckey_tweak_add_helper`,
secp256k1.c:653-662, and `secp256k1_eckey_privkey_tweak_add`, eckey_impl.h:58-61 -/
def ecSeckeyTweakAdd (seckey tweak32 : Option (List UInt8)) : Ct (Out (Option (List UInt8))) := do
  let _ ← branch seckey.isNone
  match seckey with
  | none => return .argFail none
  | some seckey =>
    let _ ← branch tweak32.isNone
    match tweak32 with
    | none => return .argFail (some seckey)
    | some tweak32 =>
      let s := Model.scSetB32Seckey seckey
      let h := Model.ecSeckeyTweakAddHelper s.1 tweak32
      let ret := s.2 && h.2
      let sec := Model.scCmov h.1 0 (!ret)
      return ⟨cInt ret, 0, some (put seckey 0 (Model.scGetB32 sec))⟩

/-- `secp256k1_ec_seckey_tweak_mul`, secp256k1.c:704-722, with `secp256k1_eckey_privkey_tweak_mul`,
eckey_impl.h:75-81 -/
def ecSeckeyTweakMul (seckey tweak32 : Option (List UInt8)) : Ct (Out (Option (List UInt8))) := do
  let _ ← branch seckey.isNone
  match seckey with
  | none => return .argFail none
  | some seckey =>
    let _ ← branch tweak32.isNone
    match tweak32 with
    | none => return .argFail (some seckey)
    | some tweak32 =>
      let factor := Model.scSetB32 tweak32
      let s := Model.scSetB32Seckey seckey
      let m := Model.eckeyPrivkeyTweakMul s.1 factor.1
      let ret := s.2 && (!factor.2 && m.2)
      let sec := Model.scCmov m.1 0 (!ret)
      return ⟨cInt ret, 0, some (put seckey 0 (Model.scGetB32 sec))⟩

/-- `secp256k1_pubkey_load`, secp256k1.c:240-244 -/
def pubkeyLoad (pubkey : List UInt8) : Ct (Ge Fp × Bool) := do
  let ret ← branch (leNat (pubkey.take 32) != 0)
  return (Model.geFromBytes pubkey, ret)

/-! ## Keypairs -/

/-- `secp256k1_keypair_create`, extrakeys/main_impl.h:196-212 -/
def keypairCreate (ctx : Ctx) (keypair seckey32 : Option (List UInt8)) :
    Ct (Out (Option (List UInt8))) := do
  let _ ← branch keypair.isNone
  match keypair with
  | none => return .argFail none
  | some _ =>
    if ← branch (!Model.ecmultGenIsBuilt ctx.gen) then return .argFail (some (zeros 96))
    else
      let _ ← branch seckey32.isNone
      match seckey32 with
      | none => return .argFail (some (zeros 96))
      | some seckey32 =>
        let h ← ecPubkeyCreateHelper ctx.gen seckey32
        return ⟨cInt h.2.2, 0, some (Model.memczero (Model.keypairSave h.1 h.2.1) (!h.2.2))⟩

/-- `secp256k1_keypair_seckey_load`, extrakeys/main_impl.h:162-171 -/
def keypairSeckeyLoad (keypair : List UInt8) : Ct (Fn × Bool) := do
  let s := Model.scSetB32Seckey keypair
  declassify [s.2.toNat]
  let _ ← branch s.2
  return s

/-- The second operand of `&&` in `secp256k1_keypair_load`, extrakeys/main_impl.h:187-189; `sk` is
uninitialised when the public key is not valid. -/
def keypairSkOf (keypair : List UInt8) (pkOk : Bool) : Ct (Fn × Bool) := do
  if ← branch pkOk then keypairSeckeyLoad keypair else return (0, false)

/-- `secp256k1_keypair_load` with `sk` not NULL, extrakeys/main_impl.h:176-194 -/
def keypairLoad (keypair : List UInt8) : Ct (Fn × Ge Fp × Bool) := do
  let pubkey := (keypair.drop 32).take 64
  declassify (bytesNats pubkey)
  let pk ← pubkeyLoad pubkey
  let sk ← keypairSkOf keypair pk.2
  if ← branch (!sk.2) then return (1, Model.geConstG, false) else return (sk.1, pk.1, true)

/-- `secp256k1_extrakeys_ge_even_y`, extrakeys/main_impl.h:88-97 -/
def geEvenY (r : Ge Fp) : Ct (Ge Fp × Int) := do
  if ← branch (Model.feIsOdd r.y) then return ({ r with y := -r.y }, 1) else return (r, 0)

/-- `secp256k1_ec_pubkey_tweak_add_helper`, secp256k1.c:680-685; `secp256k1_eckey_pubkey_tweak_add` is
not constant time. -/
def ecPubkeyTweakAddHelper (p : Ge Fp) (tweak32 : List UInt8) : Ct (Ge Fp × Bool) := do
  let term := Model.scSetB32 tweak32
  if ← branch (!term.2) then vartime (geNats p ++ [term.1.val]) (Model.eckeyPubkeyTweakAdd p term.1)
  else return (p, false)

/-- `secp256k1_keypair_xonly_tweak_add`, extrakeys/main_impl.h:255-283 -/
def keypairXonlyTweakAdd (keypair tweak32 : Option (List UInt8)) : Ct (Out (Option (List UInt8))) := do
  let _ ← branch keypair.isNone
  match keypair with
  | none => return .argFail none
  | some keypair =>
    let _ ← branch tweak32.isNone
    match tweak32 with
    | none => return .argFail (some keypair)
    | some tweak32 =>
      let l ← keypairLoad keypair
      let e ← geEvenY l.2.1
      let sk := if ← branch (decide (e.2 = 1)) then -l.1 else l.1
      let s := Model.ecSeckeyTweakAddHelper sk tweak32
      let p ← ecPubkeyTweakAddHelper e.1 tweak32
      let ret := l.2.2 && s.2 && p.2
      declassify [ret.toNat]
      let out := if ← branch ret then Model.keypairSave s.1 p.1 else zeros 96
      return ⟨cInt ret, if l.2.2 then 0 else 1, some out⟩

/-! ## ECDSA -/

/-- The loop of `nonce_function_rfc6979`, secp256k1.c:497-499: `k` calls from `i` on. -/
def rfc6979Loop : Nat → Hash.Rng → List UInt8 → Ct (List UInt8)
  | 0, _, nonce32 => do
    let _ ← branch false
    return nonce32
  | k + 1, rng, _ => do
    let _ ← branch true
    let o ← rngGenerate rng 32
    rfc6979Loop k o.2 o.1

/-- `nonce_function_rfc6979`, secp256k1.c:471-505 -/
def nonceFunctionRfc6979 (msg32 key32 : List UInt8) (algo16 data : Option (List UInt8))
    (counter : UInt32) : Ct (Option (Int × List UInt8)) := do
  let _ ← branch data.isSome
  let _ ← branch algo16.isSome
  if ← branch (decide (counter = 0xFFFFFFFF)) then return none
  else
    let rng ← rngInitialize (Model.rfc6979Keydata msg32 key32 algo16 data)
    let nonce ← rfc6979Loop (counter.toNat + 1) rng (zeros 32)
    return some (1, nonce)

/-- A nonce function together with what an observer sees of it; see `Model.NonceFn`. -/
abbrev NonceFn :=
  Nat → (msg32 key32 : List UInt8) → (algo16 data : Option (List UInt8)) → (attempt : UInt32) →
    Ct (Option (Int × List UInt8))

/-- What the nonce function computes. -/
def NonceFn.fn (f : NonceFn) : Model.NonceFn := fun i msg32 key32 algo16 data attempt =>
  (f i msg32 key32 algo16 data attempt).val

/-- `noncefp`, or the default when it is NULL, secp256k1.c:522-524 -/
def nonceFnOrDefault : Option NonceFn → NonceFn
  | some f => f
  | none => fun _ => nonceFunctionRfc6979

/-- `secp256k1_ecdsa_sig_sign`, ecdsa_impl.h:266-302; `recid` says whether the pointer is not NULL. -/
def ecdsaSigSign (gen : GenCtx) (seckey message nonce : Fn) (recid : Bool) : Ct Model.SigOut := do
  let rp ← ecmultGen gen nonce
  let r := Model.geSetGej rp
  let b := Model.feGetB32 (Model.FeOps.normalize r.x)
  let set := Model.scSetB32 b
  let sigr := set.1
  let _ ← branch recid
  let rid := (if set.2 then 2 else 0) ||| (if Model.feIsOdd (Model.FeOps.normalize r.y) then 1 else 0)
  let m := sigr * seckey
  let m := m + message
  let sigs := nonce⁻¹
  let sigs := sigs * m
  let high := Model.scIsHigh sigs
  let sigs := Model.scCondNegate sigs high
  let _ ← branch recid
  let rid := rid ^^^ (if high then 1 else 0)
  return ⟨sigr, sigs, rid, !Model.scIsZero sigr && !Model.scIsZero sigs⟩

/-- The loop of `secp256k1_ecdsa_sign_inner`, secp256k1.c:530-549 -/
def signLoop (gen : GenCtx) (noncefp : NonceFn) (recid : Bool) (msg32 seckey : List UInt8)
    (noncedata : Option (List UInt8)) (sec msg : Fn) : Nat → Nat → Model.SignSt → Ct (Option Model.SignSt)
  | 0, _, _ => return none
  | fuel + 1, i, st => do
    match ← noncefp i msg32 seckey none noncedata (UInt32.ofNat i) with
    | none => return none
    | some (ret, nonce32) =>
      if ← branch (decide (ret = 0)) then return some { st with ret := false }
      else
        let non := Model.scSetB32Seckey nonce32
        declassify [non.2.toNat]
        if ← branch non.2 then
          let o ← ecdsaSigSign gen sec msg non.1 recid
          declassify [o.ret.toNat]
          if ← branch o.ret then return some ⟨o.r, o.s, o.recid, true⟩
          else
            let st := ⟨o.r, o.s, o.recid, false⟩
            signLoop gen noncefp recid msg32 seckey noncedata sec msg fuel (i + 1) st
        else signLoop gen noncefp recid msg32 seckey noncedata sec msg fuel (i + 1) st

/-- `secp256k1_ecdsa_sign_inner`, secp256k1.c:510-564 -/
def ecdsaSignInner (fuel : Nat) (ctx : Ctx) (recid : Bool) (msg32 seckey : List UInt8)
    (noncefp : Option NonceFn) (noncedata : Option (List UInt8)) : Ct (Option Model.SignSt) := do
  let _ ← branch recid
  let _ ← branch noncefp.isNone
  let s := Model.scSetB32Seckey seckey
  let sec := Model.scCmov s.1 1 (!s.2)
  let msg := Model.scSetB32 msg32
  match ← signLoop ctx.gen (nonceFnOrDefault noncefp) recid msg32 seckey noncedata sec msg.1 fuel 0
    ⟨0, 0, 0, false⟩ with
  | none => return none
  | some st =>
    let ret := st.ret && s.2
    let _ ← branch recid
    return some ⟨Model.scCmov st.r 0 (!ret), Model.scCmov st.s 0 (!ret), if !ret then 0 else st.recid, ret⟩

/-- The argument checks that `secp256k1_ecdsa_sign`, secp256k1.c:566-578, and
`secp256k1_ecdsa_sign_recoverable`, recovery/main_impl.h:123-135, have in common, and the call. -/
def ecdsaSignWith (save : Model.SignSt → List UInt8) (recid : Bool) (fuel : Nat) (ctx : Ctx)
    (signature msghash32 seckey : Option (List UInt8)) (noncefp : Option NonceFn)
    (noncedata : Option (List UInt8)) : Ct (Option (Out (Option (List UInt8)))) := do
  if ← branch (!Model.ecmultGenIsBuilt ctx.gen) then return some (.argFail signature)
  else
    let _ ← branch msghash32.isNone
    match msghash32 with
    | none => return some (.argFail signature)
    | some msghash32 =>
      let _ ← branch signature.isNone
      match signature with
      | none => return some (.argFail none)
      | some old =>
        let _ ← branch seckey.isNone
        match seckey with
        | none => return some (.argFail (some old))
        | some seckey =>
          match ← ecdsaSignInner fuel ctx recid msghash32 seckey noncefp noncedata with
          | none => return none
          | some st => return some ⟨cInt st.ret, 0, some (save st)⟩

/-- `secp256k1_ecdsa_sign`, secp256k1.c:566-578 -/
def ecdsaSign (fuel : Nat) (ctx : Ctx) (signature msghash32 seckey : Option (List UInt8))
    (noncefp : Option NonceFn) (noncedata : Option (List UInt8)) :
    Ct (Option (Out (Option (List UInt8)))) :=
  ecdsaSignWith (fun st => Model.signatureSave st.r st.s) false fuel ctx signature msghash32 seckey
    noncefp noncedata

/-- `secp256k1_ecdsa_sign_recoverable`, recovery/main_impl.h:123-135 -/
def ecdsaSignRecoverable (fuel : Nat) (ctx : Ctx) (signature msghash32 seckey : Option (List UInt8))
    (noncefp : Option NonceFn) (noncedata : Option (List UInt8)) :
    Ct (Option (Out (Option (List UInt8)))) :=
  ecdsaSignWith (fun st => Model.recoverableSave st.r st.s st.recid) true fuel ctx signature msghash32
    seckey noncefp noncedata

/-! ## Schnorr signatures -/

/-- The masked key, schnorrsig/main_impl.h:61-79 -/
def bip340Mask (key32 : List UInt8) (data : Option (List UInt8)) : Ct (List UInt8) := do
  let _ ← branch data.isSome
  match data with
  | some data =>
    let sha ← write (Model.shaMidstate Hash.uninit Model.bip340AuxMid) (data.take 32)
    let r ← finalize sha
    return Model.xor32 r.1 (key32.take 32)
  | none => return Model.xor32 (key32.take 32) Model.bip340ZeroMask

/-- A hardened nonce function together with what an observer sees of it; see `Model.NonceHardened`. -/
abbrev NonceHardened :=
  (msg key32 xonlyPk32 : List UInt8) → (algo data : Option (List UInt8)) → Ct (Int × List UInt8)

/-- What the nonce function computes. -/
def NonceHardened.fn (f : NonceHardened) : Model.NonceHardened := fun msg key32 xonlyPk32 algo data =>
  (f msg key32 xonlyPk32 algo data).val

/-- Whether the algorithm is the default one, schnorrsig/main_impl.h:84-85 -/
def bip340Same (algo : List UInt8) : Ct Bool := do
  if ← branch (decide (algo.length = 13)) then
    vartime (bytesNats algo) (decide (Model.memcmpVar algo Model.bip340Algo algo.length = 0))
  else return false

/-- The tagged hash object, schnorrsig/main_impl.h:84-89 -/
def bip340Init (algo : List UInt8) : Ct Hash.Sha := do
  let same ← bip340Same algo
  if ← branch same then return Model.shaMidstate Hash.uninit Model.bip340NonceMid
  else initializeTagged Hash.uninit algo

/-- `nonce_function_bip340`, schnorrsig/main_impl.h:52-100 -/
def nonceFunctionBip340 : NonceHardened := fun msg key32 xonlyPk32 algo data => do
  let _ ← branch algo.isNone
  match algo with
  | none => return (0, zeros 32)
  | some algo =>
    let maskedKey ← bip340Mask key32 data
    let sha ← bip340Init algo
    let sha ← write sha maskedKey
    let sha ← write sha (xonlyPk32.take 32)
    let sha ← write sha msg
    let r ← finalize sha
    return (1, r.1)

/-- `secp256k1_schnorrsig_challenge`, schnorrsig/main_impl.h:119-133 -/
def schnorrsigChallenge (r32 msg pubkey32 : List UInt8) : Ct Fn := do
  let sha ← write (Model.shaMidstate Hash.uninit Model.schnorrMid) (r32.take 32)
  let sha ← write sha (pubkey32.take 32)
  let sha ← write sha msg
  let r ← finalize sha
  return (Model.scSetB32 r.1).1

/-- The body of `secp256k1_schnorrsig_sign_internal` after the argument checks,
schnorrsig/main_impl.h:157-197: the return value, the 64 bytes of the signature, and whether the keypair
was valid. -/
def schnorrsigSignCore (gen : GenCtx) (msg keypair : List UInt8) (noncefp : NonceHardened)
    (ndata : Option (List UInt8)) : Ct (Bool × List UInt8 × Bool) := do
  let l ← keypairLoad keypair
  let sk := if ← branch (Model.feIsOdd l.2.1.y) then -l.1 else l.1
  let seckey := Model.scGetB32 sk
  let pkBuf := Model.feGetB32 l.2.1.x
  let nc ← noncefp msg seckey pkBuf (some Model.bip340Algo) ndata
  let k := (Model.scSetB32 nc.2).1
  let ret := l.2.2 && decide (nc.1 ≠ 0) && !Model.scIsZero k
  let k := Model.scCmov k 1 (!ret)
  let rj ← ecmultGen gen k
  let r := Model.geSetGej rj
  declassify (geNats r)
  let y ← vartime [r.y.val] (Model.FeOps.normalize r.y)
  let k := if ← branch (Model.feIsOdd y) then -k else k
  let x ← vartime [r.x.val] (Model.FeOps.normalize r.x)
  let rx := Model.feGetB32 x
  let e ← schnorrsigChallenge rx msg pkBuf
  let e := e * sk
  let e := e + k
  return (ret, Model.memczero (rx ++ Model.scGetB32 e) (!ret), l.2.2)

/-- `secp256k1_schnorrsig_sign_internal`, schnorrsig/main_impl.h:135-197 -/
def schnorrsigSignInternal (ctx : Ctx) (sig64 msg : Option (List UInt8)) (msglen : Nat)
    (keypair : Option (List UInt8)) (noncefp : Option NonceHardened) (ndata : Option (List UInt8)) :
    Ct (Out (Option (List UInt8))) := do
  if ← branch (!Model.ecmultGenIsBuilt ctx.gen) then return .argFail sig64
  else
    let _ ← branch sig64.isNone
    match sig64 with
    | none => return .argFail none
    | some sig =>
      if ← branch (decide (msg = none ∧ msglen ≠ 0)) then return .argFail (some sig)
      else
        let _ ← branch keypair.isNone
        match keypair with
        | none => return .argFail (some sig)
        | some keypair =>
          let _ ← branch noncefp.isNone
          let r ← schnorrsigSignCore ctx.gen (Model.msgBytes msg msglen) keypair
            (noncefp.getD nonceFunctionBip340) ndata
          return ⟨cInt r.1, if r.2.2 then 0 else 1, some (put sig 0 r.2.1)⟩

/-- `secp256k1_schnorrsig_sign32`, schnorrsig/main_impl.h:199-202 -/
def schnorrsigSign32 (ctx : Ctx) (sig64 msg32 keypair auxRand32 : Option (List UInt8)) :
    Ct (Out (Option (List UInt8))) :=
  schnorrsigSignInternal ctx sig64 msg32 32 keypair (some nonceFunctionBip340) auxRand32

/-- `secp256k1_schnorrsig_extraparams` with an observed nonce function; see `Model.SchnorrExtra`. -/
structure SchnorrExtra where
  magic : List UInt8
  noncefp : Option NonceHardened
  ndata : Option (List UInt8)

/-- The structure without the record of what an observer sees. -/
def SchnorrExtra.plain (e : SchnorrExtra) : Model.SchnorrExtra :=
  ⟨e.magic, e.noncefp.map NonceHardened.fn, e.ndata⟩

/-- `secp256k1_schnorrsig_sign_custom`, schnorrsig/main_impl.h:208-221 -/
def schnorrsigSignCustom (ctx : Ctx) (sig64 msg : Option (List UInt8)) (msglen : Nat)
    (keypair : Option (List UInt8)) (extra : Option SchnorrExtra) : Ct (Out (Option (List UInt8))) := do
  let _ ← branch extra.isSome
  match extra with
  | none => schnorrsigSignInternal ctx sig64 msg msglen keypair none none
  | some ex =>
    let bad ← vartime (bytesNats (ex.magic.take 4))
      (decide (Model.memcmpVar ex.magic Model.schnorrMagic 4 ≠ 0))
    if ← branch bad then return .argFail sig64
    else schnorrsigSignInternal ctx sig64 msg msglen keypair ex.noncefp ex.ndata

/-! ## Key exchange -/

/-- A hash function for ECDH together with what an observer sees of it; see `Model.EcdhHash`. -/
abbrev EcdhHash := (output x32 y32 : List UInt8) → Ct (Int × List UInt8)

/-- What the hash function computes. -/
def EcdhHash.fn (f : EcdhHash) : Model.EcdhHash := fun output x32 y32 => (f output x32 y32).val

/-- `ecdh_hash_function_sha256`, ecdh/main_impl.h:13-25 -/
def ecdhHashSha256 : EcdhHash := fun output x32 y32 => do
  let version : UInt8 := ((y32.getD 31 0) &&& 0x01) ||| 0x02
  let sha ← write (Hash.init Hash.uninit) [version]
  let sha ← write sha (x32.take 32)
  let r ← finalize sha
  return (1, put output 0 r.1)

/-- See `Model.ecdhHashOrDefault`; ecdh/main_impl.h:44-46 -/
def ecdhHashOrDefault : Option EcdhHash → EcdhHash
  | some f => f
  | none => ecdhHashSha256

/-- `secp256k1_ecdh`, ecdh/main_impl.h:30-72 -/
def ecdh (output point scalar : Option (List UInt8)) (hashfp : Option EcdhHash) :
    Ct (Out (Option (List UInt8))) := do
  let _ ← branch output.isNone
  match output with
  | none => return .argFail none
  | some out =>
    let _ ← branch point.isNone
    match point with
    | none => return .argFail (some out)
    | some point =>
      let _ ← branch scalar.isNone
      match scalar with
      | none => return .argFail (some out)
      | some scalar =>
        let _ ← branch hashfp.isNone
        let q ← pubkeyLoad point
        let s := Model.scSetB32 scalar
        let overflow := s.2 || Model.scIsZero s.1
        let sc := Model.scCmov s.1 1 overflow
        let res ← ecmultConst q.1 sc
        let pt := Model.geSetGej res
        let x := Model.feGetB32 (Model.FeOps.normalize pt.x)
        let y := Model.feGetB32 (Model.FeOps.normalize pt.y)
        let r ← ecdhHashOrDefault hashfp out x y
        return ⟨cInt (r.1 ≠ 0 && !overflow), if q.2 then 0 else 1, some r.2⟩

/-- A hash function for the ElligatorSwift key exchange together with what an observer sees of it; see
`Model.EllswiftHash`. -/
abbrev EllswiftHash := (output x32 ellA64 ellB64 : List UInt8) → Ct (Int × List UInt8)

/-- What the hash function computes. -/
def EllswiftHash.fn (f : EllswiftHash) : Model.EllswiftHash := fun output x32 a b => (f output x32 a b).val

/-- `ellswift_xdh_hash_function_prefix`, ellswift/main_impl.h:504-516 -/
def ellswiftHashPrefix (data : List UInt8) : EllswiftHash := fun output x32 a b => do
  let sha ← write (Hash.init Hash.uninit) (data.take 64)
  let sha ← write sha (a.take 64)
  let sha ← write sha (b.take 64)
  let sha ← write sha (x32.take 32)
  let r ← finalize sha
  return (1, put output 0 r.1)

/-- `ellswift_xdh_hash_function_bip324`, ellswift/main_impl.h:533-546 -/
def ellswiftHashBip324 : EllswiftHash := fun output x32 a b => do
  let sha ← write (Model.shaMidstate Hash.uninit Model.ellswiftBip324Mid) (a.take 64)
  let sha ← write sha (b.take 64)
  let sha ← write sha (x32.take 32)
  let r ← finalize sha
  return (1, put output 0 r.1)

/-- `secp256k1_ellswift_xdh`, ellswift/main_impl.h:551-590; `secp256k1_ellswift_xswiftec_frac_var` is not
constant time. -/
def ellswiftXdh (output ellA64 ellB64 seckey32 : Option (List UInt8)) (party : Int)
    (hashfp : Option EllswiftHash) : Ct (Out (Option (List UInt8))) := do
  let _ ← branch output.isNone
  match output with
  | none => return .argFail none
  | some out =>
    let _ ← branch ellA64.isNone
    match ellA64 with
    | none => return .argFail (some out)
    | some a =>
      let _ ← branch ellB64.isNone
      match ellB64 with
      | none => return .argFail (some out)
      | some b =>
        let _ ← branch seckey32.isNone
        match seckey32 with
        | none => return .argFail (some out)
        | some seckey =>
          let _ ← branch hashfp.isNone
          match hashfp with
          | none => return .argFail (some out)
          | some hashfp =>
            let theirs := if ← branch (decide (party ≠ 0)) then a else b
            let u := Model.feSetB32Mod theirs
            let t := Model.feSetB32Mod (theirs.drop 32)
            let x ← vartime [u.val, t.val] (Model.xswiftecFracVar u t)
            let s := (Model.scSetB32 seckey).1
            let overflow := Model.scIsZero s
            let s := Model.scCmov s 1 overflow
            let px ← ecmultConstXonly x.1 (some x.2) s true
            let sx := Model.feGetB32 (Model.FeOps.normalize (px.getD 0))
            let r ← hashfp out sx a b
            return ⟨cInt (r.1 ≠ 0 && !overflow), 0, some r.2⟩

/-! ## ElligatorSwift encodings -/

/-- The part of a hash object that the hash functions read: the state, the number of bytes, and the bytes
of the current block.  The rest of the buffer holds stale bytes. -/
def shaNats (h : Hash.Sha) : List Nat :=
  h.s.map UInt32.toNat ++ h.bytes.toNat :: bytesNats (h.buf.take (h.bytes.toNat % 64))

/-- `secp256k1_ellswift_create`, ellswift/main_impl.h:450-487.  `secp256k1_fe_normalize_var` and
`secp256k1_ellswift_elligatorswift_var` are not constant time.  The C code declassifies the whole hash
object, of which only `shaNats` is recorded here: its buffer still holds the bytes of the secret key, which
nothing reads before they are overwritten. -/
def ellswiftCreate (ctx : Ctx) (fuel : Nat) (ell64 seckey32 auxrnd32 : Option (List UInt8)) :
    Ct (Option (Out (Option (List UInt8)))) := do
  let _ ← branch ell64.isNone
  match ell64 with
  | none => return some (.argFail none)
  | some ell =>
    let ell := put ell 0 (zeros 64)
    if ← branch (!Model.ecmultGenIsBuilt ctx.gen) then return some (.argFail (some ell))
    else
      let _ ← branch seckey32.isNone
      match seckey32 with
      | none => return some (.argFail (some ell))
      | some seckey =>
        let h ← ecPubkeyCreateHelper ctx.gen seckey
        declassify (geNats h.2.1)
        let x ← vartime [h.2.1.x.val] (Model.FeOps.normalize h.2.1.x)
        let y ← vartime [h.2.1.y.val] (Model.FeOps.normalize h.2.1.y)
        let p : Ge Fp := { h.2.1 with x := x, y := y }
        let hash ← write (Model.shaMidstate Hash.uninit Model.ellswiftCreateMid) (seckey.take 32)
        let hash ← write hash (zeros 32)
        declassify (shaNats hash)
        let _ ← branch auxrnd32.isSome
        let hash ← match auxrnd32 with
          | some aux => write hash (aux.take 32)
          | none => pure hash
        match ← vartime (geNats p ++ shaNats hash) (Model.elligatorswiftVar fuel p hash) with
        | none => return none
        | some r => return some ⟨cInt h.2.2, 0, some (Model.memczero (Model.ellswiftPut ell r) (!h.2.2))⟩

/-! ## MuSig -/

/-- `secp256k1_keyagg_cache_load`, musig/keyagg_impl.h:46-60: `secp256k1_memcmp_var` is not constant time,
and neither is `secp256k1_ge_from_bytes_ext`, which reads the second public key. -/
def keyaggCacheLoad (cache : List UInt8) : Ct (Option Model.KeyaggCache) := do
  let bad ← vartime (bytesNats (cache.take 4)) (decide (Model.memcmpVar cache Model.cacheMagic 4 ≠ 0))
  if ← branch bad then return none
  else
    let secondPk ← vartime (bytesNats ((cache.drop 68).take 64)) (Model.geFromBytesExt (cache.drop 68))
    return some
      { pk := Model.geFromBytes (cache.drop 4)
        secondPk := secondPk
        pksHash := (cache.drop 132).take 32
        parityAcc := (cache.getD 164 0 &&& 1).toNat
        tweak := (Model.scSetB32 (cache.drop 165)).1 }

/-- `secp256k1_musig_secnonce_invalidate`, musig/session_impl.h:80-88 -/
def secnonceInvalidate (secnonce : List UInt8) (flag : Bool) : Ct (List UInt8) := do
  let secnonce := Model.memczero secnonce flag
  declassify (bytesNats (secnonce.take 4))
  declassify (bytesNats ((secnonce.drop 68).take 64))
  return secnonce

/-- `secp256k1_nonce_function_musig_helper`, musig/session_impl.h:305-320 -/
def musigNonceHelper (sha : Hash.Sha) (prefixSize : Nat) (data : Option (List UInt8)) (len : Nat) :
    Ct Hash.Sha := do
  let sha ← write sha (zeros (prefixSize - 1))
  let _ ← branch data.isSome
  match data with
  | some data =>
    let sha ← write sha [UInt8.ofNat len]
    write sha (data.take len)
  | none => write sha [0]

/-- `rand`, musig/session_impl.h:358-367 -/
def musigRand (sessionSecrand : List UInt8) (seckey32 : Option (List UInt8)) : Ct (List UInt8) := do
  let _ ← branch seckey32.isSome
  match seckey32 with
  | some seckey32 =>
    let sha ← write (Model.shaMidstate Hash.uninit Model.musigAuxMid) (sessionSecrand.take 32)
    let r ← finalize sha
    return Model.xor32 r.1 (seckey32.take 32)
  | none => return sessionSecrand.take 32

/-- The optional message, musig/session_impl.h:375-377 -/
def musigNonceMsg (sha : Hash.Sha) (msg32 : Option (List UInt8)) : Ct Hash.Sha := do
  if ← branch msg32.isSome then musigNonceHelper sha 8 msg32 32 else return sha

/-- The hash state before the loop of `secp256k1_nonce_function_musig`, musig/session_impl.h:369-378 -/
def musigNonceState (rand : List UInt8) (msg32 : Option (List UInt8)) (pk33 : List UInt8)
    (aggPk32 extraInput32 : Option (List UInt8)) : Ct Hash.Sha := do
  let sha ← write (Model.shaMidstate Hash.uninit Model.musigNonceMid) rand
  let sha ← musigNonceHelper sha 1 (some pk33) 33
  let sha ← musigNonceHelper sha 1 aggPk32 32
  let sha ← write sha [if msg32.isSome then 1 else 0]
  let sha ← musigNonceMsg sha msg32
  musigNonceHelper sha 4 extraInput32 32

/-- One round of the loop of `secp256k1_nonce_function_musig`, musig/session_impl.h:380-390 -/
def musigNonceK (sha : Hash.Sha) (i : UInt8) : Ct Fn := do
  let sha ← write sha [i]
  let r ← finalize sha
  return (Model.scSetB32 r.1).1

/-- `secp256k1_nonce_function_musig`, musig/session_impl.h:352-393 -/
def nonceFunctionMusig (sessionSecrand : List UInt8) (msg32 seckey32 : Option (List UInt8))
    (pk33 : List UInt8) (aggPk32 extraInput32 : Option (List UInt8)) : Ct (Fn × Fn) := do
  let rand ← musigRand sessionSecrand seckey32
  let sha ← musigNonceState rand msg32 pk33 aggPk32 extraInput32
  let k0 ← musigNonceK sha 0
  let k1 ← musigNonceK sha 1
  return (k0, k1)

/-- musig/session_impl.h:431-466; `secp256k1_eckey_pubkey_serialize` is not constant time. -/
def musigNonceGenCore (gen : GenCtx) (inputNonce : List UInt8) (seckey msg32 : Option (List UInt8))
    (pk : Ge Fp) (aggPk32 extraInput32 : Option (List UInt8)) (ret : Bool) :
    Ct (List UInt8 × List UInt8) := do
  let pkSer ← vartime (geNats pk) (Model.eckeyPubkeySerialize pk (zeros 33) 33 true).1
  let k ← nonceFunctionMusig inputNonce msg32 seckey pkSer aggPk32 extraInput32
  let secnonce ← secnonceInvalidate (Model.secnonceSave k.1 k.2 pk) (!ret)
  let p0 ← ecmultGen gen k.1
  let p1 ← ecmultGen gen k.2
  let pts := Model.geSetAllGej [p0, p1]
  let n0 := pts.getD 0 Model.geGarbage
  let n1 := pts.getD 1 Model.geGarbage
  declassify (geNats n0)
  declassify (geNats n1)
  return (secnonce, Model.pubnonceSave n0 n1)

/-- `aggpk_ser_ptr`, musig/session_impl.h:420-428 -/
def nonceGenAggPk (cache : Option (List UInt8)) : Ct (Option (Option (List UInt8))) := do
  let _ ← branch cache.isSome
  match cache with
  | none => return some none
  | some cache =>
    match ← keyaggCacheLoad cache with
    | none => return none
    | some c => return some (some (Model.feGetB32 c.pk.x))

/-- `secp256k1_musig_nonce_gen_internal`, musig/session_impl.h:395-467 -/
def musigNonceGenInternal (ctx : Ctx) (secnonce : List UInt8) (pubnonce : Option (List UInt8))
    (inputNonce : List UInt8) (seckey pubkey msg32 cache extraInput32 : Option (List UInt8)) :
    Ct (Out (List UInt8 × Option (List UInt8))) := do
  let _ ← branch pubnonce.isNone
  match pubnonce with
  | none => return .argFail (secnonce, none)
  | some _ =>
    let _ ← branch pubkey.isNone
    match pubkey with
    | none => return .argFail (secnonce, some (zeros 132))
    | some pubkey =>
      if ← branch (!Model.ecmultGenIsBuilt ctx.gen) then return .argFail (secnonce, some (zeros 132))
      else
        let _ ← branch seckey.isSome
        let ret := Model.nonceGenSeckeyOk seckey
        match ← nonceGenAggPk cache with
        | none => return .argFail (secnonce, some (zeros 132))
        | some aggPk32 =>
          let pk ← pubkeyLoad pubkey
          if ← branch (!pk.2) then return ⟨0, 1, (secnonce, some (zeros 132))⟩
          else
            let r ← musigNonceGenCore ctx.gen inputNonce seckey msg32 pk.1 aggPk32 extraInput32 ret
            return ⟨cInt ret, 0, (r.1, some r.2)⟩

/-- `secp256k1_musig_nonce_gen`, musig/session_impl.h:469-495 -/
def musigNonceGen (ctx : Ctx) (secnonce pubnonce sessionSecrand32
    seckey pubkey msg32 cache extraInput32 : Option (List UInt8)) :
    Ct (Out (Option (List UInt8) × Option (List UInt8) × Option (List UInt8))) := do
  let _ ← branch secnonce.isNone
  match secnonce with
  | none => return .argFail (none, pubnonce, sessionSecrand32)
  | some _ =>
    let _ ← branch sessionSecrand32.isNone
    match sessionSecrand32 with
    | none => return .argFail (some (zeros 132), pubnonce, none)
    | some rand =>
      let zero := Model.isZeroArray (rand.take 32)
      declassify [(!zero).toNat]
      if ← branch zero then
        let secnonce ← secnonceInvalidate (zeros 132) true
        return ⟨0, 0, (some secnonce, pubnonce, some rand)⟩
      else
        let r ← musigNonceGenInternal ctx (zeros 132) pubnonce rand seckey pubkey msg32 cache
          extraInput32
        return ⟨r.ret, r.illegal,
          (some r.val.1, r.val.2,
            some (put rand 0 (Model.memczero (rand.take 32) (decide (r.ret ≠ 0)))))⟩

/-- `secp256k1_musig_nonce_gen_counter`, musig/session_impl.h:497-523.  The last branch depends on whether
the secret key in the keypair is valid. -/
def musigNonceGenCounter (ctx : Ctx) (secnonce pubnonce : Option (List UInt8)) (cnt : UInt64)
    (keypair msg32 cache extraInput32 : Option (List UInt8)) :
    Ct (Out (Option (List UInt8) × Option (List UInt8))) := do
  let _ ← branch secnonce.isNone
  match secnonce with
  | none => return .argFail (none, pubnonce)
  | some _ =>
    let _ ← branch keypair.isNone
    match keypair with
    | none => return .argFail (some (zeros 132), pubnonce)
    | some keypair =>
      let buf := Spec.beBytes 8 cnt.toNat ++ zeros 24
      let seckey := Model.keypairSec (some (zeros 32)) (some keypair)
      let pubkey := Model.keypairPub (some (zeros 64)) (some keypair)
      let r ← musigNonceGenInternal ctx (zeros 132) pubnonce buf seckey.val pubkey.val msg32 cache
        extraInput32
      let ret := if ← branch (decide (r.ret = 0)) then 0 else 1
      return ⟨ret, r.illegal, (some r.val.1, r.val.2)⟩

/-- `secp256k1_musig_secnonce_load`, musig/session_impl.h:64-77 -/
def secnonceLoad (secnonce : List UInt8) : Ct (Option (Fn × Fn × Ge Fp)) := do
  let bad ← vartime (bytesNats (secnonce.take 4))
    (decide (Model.memcmpVar secnonce Model.secnonceMagic 4 ≠ 0))
  if ← branch bad then return none
  else
    let isZero := Model.isZeroArray ((secnonce.drop 4).take 64)
    declassify [isZero.toNat]
    if ← branch isZero then return none
    else return some ((Model.scSetB32 (secnonce.drop 4)).1, (Model.scSetB32 (secnonce.drop 36)).1,
      Model.geFromBytes (secnonce.drop 68))

/-- `secp256k1_musig_session_load`, musig/session_impl.h:160-175 -/
def sessionLoad (session : List UInt8) : Ct (Option Model.Session) := do
  let bad ← vartime (bytesNats (session.take 4))
    (decide (Model.memcmpVar session Model.sessionMagic 4 ≠ 0))
  if ← branch bad then return none
  else return Model.sessionLoad session

/-- `secp256k1_musig_keyaggcoef`, musig/keyagg_impl.h:147-149, which is not constant time. -/
def keyaggCoef (c : Model.KeyaggCache) (pk : Ge Fp) : Ct Fn :=
  vartime (bytesNats c.pksHash ++ geNats pk ++ geNats c.secondPk) (Model.keyaggCoef c pk)

/-- The comparison of the public keys, musig/session_impl.h:697-698 -/
def partialSignEq (pk keypairPk : Ge Fp) : Ct Bool := do
  if ← branch (Model.FeOps.equal pk.x keypairPk.x) then branch (Model.FeOps.equal pk.y keypairPk.y)
  else return false

/-- musig/session_impl.h:688-734, after the secret nonce has been loaded and zeroed -/
def partialSignWith (partialSig keypair cache session : Option (List UInt8)) (k0 k1 : Fn)
    (pk : Ge Fp) : Ct (Out (Option (List UInt8))) := do
  let _ ← branch partialSig.isNone
  match partialSig with
  | none => return .argFail none
  | some old =>
    let _ ← branch keypair.isNone
    match keypair with
    | none => return .argFail (some old)
    | some keypair =>
      let _ ← branch cache.isNone
      match cache with
      | none => return .argFail (some old)
      | some cache =>
        let _ ← branch session.isNone
        match session with
        | none => return .argFail (some old)
        | some session =>
          let l ← keypairLoad keypair
          if ← branch (!l.2.2) then return .argFail (some old)
          else
            let eq ← partialSignEq pk l.2.1
            if ← branch (!eq) then return .argFail (some old)
            else
              match ← keyaggCacheLoad cache with
              | none => return .argFail (some old)
              | some c =>
                let sk := if ← branch (decide ((if Model.feIsOdd c.pk.y then 1 else 0) ≠ c.parityAcc))
                  then -l.1 else l.1
                let mu ← keyaggCoef c pk
                let sk := sk * mu
                match ← sessionLoad session with
                | none => return .argFail (some old)
                | some s =>
                  let neg ← branch (decide (s.finNonceParity ≠ 0))
                  let k0 := if neg then -k0 else k0
                  let k1 := if neg then -k1 else k1
                  let sv := s.challenge * sk
                  let k1 := s.noncecoef * k1
                  let k0 := k0 + k1
                  return ⟨1, 0, some (Model.partialSigSave (sv + k0))⟩

/-- `secp256k1_musig_partial_sign`, musig/session_impl.h:666-734 -/
def musigPartialSign (partialSig secnonce keypair cache session : Option (List UInt8)) :
    Ct (Out (Option (List UInt8) × Option (List UInt8))) := do
  let _ ← branch secnonce.isNone
  match secnonce with
  | none => return .argFail (partialSig, none)
  | some secnonce =>
    match ← secnonceLoad secnonce with
    | none => return ⟨0, 1, (partialSig, some (zeros 132))⟩
    | some (k0, k1, pk) =>
      let r ← partialSignWith partialSig keypair cache session k0 k1 pk
      return ⟨r.ret, r.illegal, (r.val, some (zeros 132))⟩

end Secp.Leak
