import Verif.Model.Extrakeys
import Verif.Model.Hash

/-!
# Model of `/repo/src/modules/schnorrsig/main_impl.h`

A message argument `(msg, msglen)` is an `Option` (NULL or a buffer) and a length; the function reads
the first `msglen` bytes.
-/

namespace Secp.Model

open FeOps

/-- The pattern of the midstate initialisers: `secp256k1_sha256_initialize`, then the eight words are
overwritten and `bytes` is set to 64 (e.g. schnorrsig/main_impl.h:16-28). -/
def shaMidstate (h : Hash.Sha) (s : List UInt32) : Hash.Sha := { Hash.init h with s := s, bytes := 64 }

/-- `secp256k1_nonce_function_bip340_sha256_tagged`, schnorrsig/main_impl.h:16-28 -/
def bip340NonceMid : List UInt32 :=
  [0x46615b35, 0xf4bfbff7, 0x9f8dc671, 0x83627ab3, 0x60217180, 0x57358661, 0x21a29e54, 0x68b07b4c]

/-- `secp256k1_nonce_function_bip340_sha256_tagged_aux`, schnorrsig/main_impl.h:32-44 -/
def bip340AuxMid : List UInt32 :=
  [0x24dd3219, 0x4eba7e70, 0xca0fabb9, 0x0fa3166d, 0x3afbe4b1, 0x4c44df97, 0x4aac2739, 0x249e850a]

/-- `secp256k1_schnorrsig_sha256_tagged`, schnorrsig/main_impl.h:106-117 -/
def schnorrMid : List UInt32 :=
  [0x9cecba11, 0x23925381, 0x11679112, 0xd1627e0f, 0x97c87550, 0x003cc765, 0x90f61164, 0x33e9b66a]

/-- `bip340_algo`, schnorrsig/main_impl.h:48 -/
def bip340Algo : List UInt8 := [66, 73, 80, 48, 51, 52, 48, 47, 110, 111, 110, 99, 101]

/-- `ZERO_MASK`, schnorrsig/main_impl.h:70-75 -/
def bip340ZeroMask : List UInt8 :=
  [84, 241, 105, 207, 201, 226, 229, 114, 116, 128, 68, 31, 144, 186, 37, 196,
   136, 244, 97, 199, 11, 94, 165, 220, 170, 247, 175, 105, 39, 10, 165, 20]

/-- A hardened nonce function (include/secp256k1_schnorrsig.h:41-50): from the message, the secret key,
the x-only public key, the algorithm name and the caller's data, the return value and the contents of
`nonce32`. -/
abbrev NonceHardened :=
  (msg key32 xonlyPk32 : List UInt8) → (algo data : Option (List UInt8)) → Int × List UInt8

/-- The xor loops, schnorrsig/main_impl.h:65-67, 76-78. -/
def xor32 (a b : List UInt8) : List UInt8 := List.zipWith (· ^^^ ·) a b

/-- The masked key, schnorrsig/main_impl.h:61-79. -/
def bip340Mask (key32 : List UInt8) : Option (List UInt8) → List UInt8
  | some data =>
    let sha := shaMidstate Hash.uninit bip340AuxMid
    xor32 (Hash.finalize (Hash.write sha (data.take 32))).1 (key32.take 32)
  | none => xor32 (key32.take 32) bip340ZeroMask

/-- `nonce_function_bip340`, schnorrsig/main_impl.h:52-100; when `algo` is NULL `nonce32` keeps its
content, which is zero in the only caller in the library. -/
def nonceFunctionBip340 : NonceHardened := fun msg key32 xonlyPk32 algo data =>
  match algo with
  | none => (0, zeros 32)
  | some algo =>
    let maskedKey := bip340Mask key32 data
    let sha := if algo.length = 13 ∧ memcmpVar algo bip340Algo algo.length = 0
      then shaMidstate Hash.uninit bip340NonceMid
      else Hash.initializeTagged Hash.uninit algo
    let sha := Hash.write sha maskedKey
    let sha := Hash.write sha (xonlyPk32.take 32)
    let sha := Hash.write sha msg
    (1, (Hash.finalize sha).1)

/-- `secp256k1_schnorrsig_challenge`, schnorrsig/main_impl.h:119-133 -/
def schnorrsigChallenge (r32 msg pubkey32 : List UInt8) : Fn :=
  let sha := shaMidstate Hash.uninit schnorrMid
  let sha := Hash.write sha (r32.take 32)
  let sha := Hash.write sha (pubkey32.take 32)
  let sha := Hash.write sha msg
  (scSetB32 (Hash.finalize sha).1).1

/-- The message read by a call with arguments `(msg, msglen)`. -/
def msgBytes (msg : Option (List UInt8)) (msglen : Nat) : List UInt8 := (msg.getD []).take msglen

/-- The body of `secp256k1_schnorrsig_sign_internal` after the argument checks,
schnorrsig/main_impl.h:157-197: the return value and the 64 bytes of the signature. -/
def schnorrsigSignCore (gen : GenCtx) (msg keypair : List UInt8) (noncefp : NonceHardened)
    (ndata : Option (List UInt8)) : Bool × List UInt8 :=
  let l := keypairLoad keypair
  let sk := if feIsOdd l.2.1.y then -l.1 else l.1
  let seckey := scGetB32 sk
  let pkBuf := feGetB32 l.2.1.x
  let nc := noncefp msg seckey pkBuf (some bip340Algo) ndata
  let k := (scSetB32 nc.2).1
  let ret := l.2.2 && decide (nc.1 ≠ 0) && !scIsZero k
  let k := scCmov k 1 (!ret)
  let r := geSetGej (ecmultGen gen k)
  let y := FeOps.normalize r.y
  let k := if feIsOdd y then -k else k
  let x := FeOps.normalize r.x
  let rx := feGetB32 x
  let e := schnorrsigChallenge rx msg pkBuf
  let e := e * sk
  let e := e + k
  (ret, memczero (rx ++ scGetB32 e) (!ret))

/-- `secp256k1_schnorrsig_sign_internal`, schnorrsig/main_impl.h:135-197.  Memory: `sig64`. -/
def schnorrsigSignInternal (ctx : Ctx) (sig64 msg : Option (List UInt8)) (msglen : Nat)
    (keypair : Option (List UInt8)) (noncefp : Option NonceHardened) (ndata : Option (List UInt8)) :
    Out (Option (List UInt8)) :=
  if !ecmultGenIsBuilt ctx.gen then .argFail sig64
  else
    match sig64 with
    | none => .argFail none
    | some sig =>
      if msg = none ∧ msglen ≠ 0 then .argFail (some sig)
      else
        match keypair with
        | none => .argFail (some sig)
        | some keypair =>
          let r := schnorrsigSignCore ctx.gen (msgBytes msg msglen) keypair
            (noncefp.getD nonceFunctionBip340) ndata
          ⟨cInt r.1, if (keypairLoad keypair).2.2 then 0 else 1, some (put sig 0 r.2)⟩

/-- `secp256k1_schnorrsig_sign32`, schnorrsig/main_impl.h:199-202 -/
def schnorrsigSign32 (ctx : Ctx) (sig64 msg32 keypair auxRand32 : Option (List UInt8)) :
    Out (Option (List UInt8)) :=
  schnorrsigSignInternal ctx sig64 msg32 32 keypair (some nonceFunctionBip340) auxRand32

/-- `secp256k1_schnorrsig_sign`, schnorrsig/main_impl.h:204-206 -/
def schnorrsigSign (ctx : Ctx) (sig64 msg32 keypair auxRand32 : Option (List UInt8)) :
    Out (Option (List UInt8)) :=
  schnorrsigSign32 ctx sig64 msg32 keypair auxRand32

/-- `secp256k1_schnorrsig_extraparams`, include/secp256k1_schnorrsig.h:82-86 -/
structure SchnorrExtra where
  magic : List UInt8
  noncefp : Option NonceHardened
  ndata : Option (List UInt8)

/-- `schnorrsig_extraparams_magic`, schnorrsig/main_impl.h:50 -/
def schnorrMagic : List UInt8 := [0xda, 0x6f, 0xb3, 0x8c]

/-- `secp256k1_schnorrsig_sign_custom`, schnorrsig/main_impl.h:208-221 -/
def schnorrsigSignCustom (ctx : Ctx) (sig64 msg : Option (List UInt8)) (msglen : Nat)
    (keypair : Option (List UInt8)) (extra : Option SchnorrExtra) : Out (Option (List UInt8)) :=
  match extra with
  | none => schnorrsigSignInternal ctx sig64 msg msglen keypair none none
  | some ex =>
    if memcmpVar ex.magic schnorrMagic 4 ≠ 0 then .argFail sig64
    else schnorrsigSignInternal ctx sig64 msg msglen keypair ex.noncefp ex.ndata

/-- The group part of `secp256k1_schnorrsig_verify`, schnorrsig/main_impl.h:252-269. -/
def schnorrsigVerifyPoint (rx : Fp) (s e : Fn) (pk : Ge Fp) : Bool :=
  let rj := ecmult (gejSetGe pk) (-e) (some s)
  let r := geSetGejVar rj
  if r.infinity then false
  else
    let y := FeOps.normalize r.y
    !feIsOdd y && FeOps.equal rx r.x

/-- `secp256k1_schnorrsig_verify`, schnorrsig/main_impl.h:223-269 -/
def schnorrsigVerify (sig64 msg : Option (List UInt8)) (msglen : Nat)
    (pubkey : Option (List UInt8)) : Out Unit :=
  match sig64 with
  | none => .argFail ()
  | some sig =>
    if msg = none ∧ msglen ≠ 0 then .argFail ()
    else
      match pubkey with
      | none => .argFail ()
      | some pubkey =>
        let rx := feSetB32Limit sig
        if !rx.2 then ⟨0, 0, ()⟩
        else
          let s := scSetB32 (sig.drop 32)
          if s.2 then ⟨0, 0, ()⟩
          else
            let pk := pubkeyLoad pubkey
            if !pk.2 then ⟨0, 1, ()⟩
            else
              let e := schnorrsigChallenge sig (msgBytes msg msglen) (feGetB32 pk.1.x)
              ⟨cInt (schnorrsigVerifyPoint rx.1 s.1 e pk.1), 0, ()⟩

end Secp.Model
