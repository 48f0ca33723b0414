import Verif.Model.ApiKey

/-!
# Model of `/repo/src/modules/extrakeys/main_impl.h`

An x-only key object has the layout of a public key object (extrakeys/main_impl.h:14-20).  A keypair
object is 96 bytes: the secret key in big endian and a public key object.
-/

namespace Secp.Model

open Spec (beNat beBytes leNat leBytes)
open FeOps

/-- `secp256k1_xonly_pubkey_parse`, extrakeys/main_impl.h:22-42 -/
def xonlyPubkeyParse (pubkey input32 : Option (List UInt8)) : Out (Option (List UInt8)) :=
  match pubkey with
  | none => .argFail none
  | some _ =>
    match input32 with
    | none => .argFail (some (zeros 64))
    | some input32 =>
      let x := feSetB32Limit input32
      if !x.2 then ⟨0, 0, some (zeros 64)⟩
      else
        let pk := geSetXoVar x.1 false
        if !pk.2 then ⟨0, 0, some (zeros 64)⟩
        else if !geIsInCorrectSubgroup pk.1 then ⟨0, 0, some (zeros 64)⟩
        else ⟨1, 0, some (pubkeySave pk.1)⟩

/-- `secp256k1_xonly_pubkey_serialize`, extrakeys/main_impl.h:44-57.  Memory: `output32`. -/
def xonlyPubkeySerialize (output32 pubkey : Option (List UInt8)) : Out (Option (List UInt8)) :=
  match output32 with
  | none => .argFail none
  | some out =>
    let out := put out 0 (zeros 32)
    match pubkey with
    | none => .argFail (some out)
    | some pubkey =>
      let pk := pubkeyLoad pubkey
      if !pk.2 then ⟨0, 1, some out⟩
      else ⟨1, 0, some (put out 0 (feGetB32 pk.1.x))⟩

/-- One round of the loop of `secp256k1_xonly_pubkey_cmp`, extrakeys/main_impl.h:66-81. -/
def xonlyCmpKey (pk : Option (List UInt8)) : List UInt8 × Nat :=
  let r := xonlyPubkeySerialize (some (zeros 32)) pk
  if r.ret = 0 then (zeros 32, r.illegal) else (r.val.getD [], r.illegal)

/-- `secp256k1_xonly_pubkey_cmp`, extrakeys/main_impl.h:59-83 -/
def xonlyPubkeyCmp (pk0 pk1 : Option (List UInt8)) : Out Unit :=
  let a := xonlyCmpKey pk0
  let b := xonlyCmpKey pk1
  ⟨memcmpVar a.1 b.1 32, a.2 + b.2, ()⟩

/-- `secp256k1_extrakeys_ge_even_y`, extrakeys/main_impl.h:88-97: the new point and the parity. -/
def geEvenY (r : Ge Fp) : Ge Fp × Int :=
  if feIsOdd r.y then ({ r with y := -r.y }, 1) else (r, 0)

/-- `secp256k1_xonly_pubkey_from_pubkey`, extrakeys/main_impl.h:99-116.  Memory: `xonly_pubkey`,
`*pk_parity`. -/
def xonlyPubkeyFromPubkey (xonlyPubkey : Option (List UInt8)) (pkParity : Option Int)
    (pubkey : Option (List UInt8)) : Out (Option (List UInt8) × Option Int) :=
  match xonlyPubkey with
  | none => .argFail (none, pkParity)
  | some old =>
    match pubkey with
    | none => .argFail (some old, pkParity)
    | some pubkey =>
      let pk := pubkeyLoad pubkey
      if !pk.2 then ⟨0, 1, (some old, pkParity)⟩
      else
        let e := geEvenY pk.1
        ⟨1, 0, (some (pubkeySave e.1), pkParity.map fun _ => e.2)⟩

/-- `secp256k1_xonly_pubkey_tweak_add`, extrakeys/main_impl.h:118-133.  Memory: `output_pubkey`. -/
def xonlyPubkeyTweakAdd (outputPubkey internalPubkey tweak32 : Option (List UInt8)) :
    Out (Option (List UInt8)) :=
  match outputPubkey with
  | none => .argFail none
  | some _ =>
    match internalPubkey with
    | none => .argFail (some (zeros 64))
    | some internalPubkey =>
      match tweak32 with
      | none => .argFail (some (zeros 64))
      | some tweak32 =>
        let pk := pubkeyLoad internalPubkey
        if !pk.2 then ⟨0, 1, some (zeros 64)⟩
        else
          let t := ecPubkeyTweakAddHelper pk.1 tweak32
          if !t.2 then ⟨0, 0, some (zeros 64)⟩
          else ⟨1, 0, some (pubkeySave t.1)⟩

/-- `secp256k1_xonly_pubkey_tweak_add_check`, extrakeys/main_impl.h:135-154 -/
def xonlyPubkeyTweakAddCheck (tweakedPubkey32 : Option (List UInt8)) (tweakedPkParity : Int)
    (internalPubkey tweak32 : Option (List UInt8)) : Out Unit :=
  match internalPubkey with
  | none => .argFail ()
  | some internalPubkey =>
    match tweakedPubkey32 with
    | none => .argFail ()
    | some tweakedPubkey32 =>
      match tweak32 with
      | none => .argFail ()
      | some tweak32 =>
        let pk := pubkeyLoad internalPubkey
        if !pk.2 then ⟨0, 1, ()⟩
        else
          let t := ecPubkeyTweakAddHelper pk.1 tweak32
          if !t.2 then ⟨0, 0, ()⟩
          else
            let x := FeOps.normalize t.1.x
            let y := FeOps.normalize t.1.y
            ⟨cInt (memcmpVar (feGetB32 x) tweakedPubkey32 32 == 0 &&
              cInt (feIsOdd y) == tweakedPkParity), 0, ()⟩

/-- `secp256k1_keypair_save`, extrakeys/main_impl.h:156-159 -/
def keypairSave (sk : Fn) (pk : Ge Fp) : List UInt8 := scGetB32 sk ++ pubkeySave pk

/-- `secp256k1_keypair_seckey_load`, extrakeys/main_impl.h:162-171: the scalar and the return value;
the callback is called iff it is false. -/
def keypairSeckeyLoad (keypair : List UInt8) : Fn × Bool := scSetB32Seckey keypair

/-- `secp256k1_keypair_load` with `sk` not NULL, extrakeys/main_impl.h:176-194: `*sk`, `*pk`, the return
value (the callback is called once iff it is false). -/
def keypairLoad (keypair : List UInt8) : Fn × Ge Fp × Bool :=
  let pk := pubkeyLoad (keypair.drop 32)
  let sk := keypairSeckeyLoad keypair
  let ret := pk.2 && sk.2
  if !ret then (1, geConstG, false) else (sk.1, pk.1, true)

/-- `secp256k1_keypair_load` with `sk` NULL. -/
def keypairLoadPub (keypair : List UInt8) : Ge Fp × Bool :=
  let pk := pubkeyLoad (keypair.drop 32)
  if !pk.2 then (geConstG, false) else (pk.1, true)

/-- `secp256k1_keypair_create`, extrakeys/main_impl.h:196-212.  Memory: `keypair`. -/
def keypairCreate (ctx : Ctx) (keypair seckey32 : Option (List UInt8)) : Out (Option (List UInt8)) :=
  match keypair with
  | none => .argFail none
  | some _ =>
    if !ecmultGenIsBuilt ctx.gen then .argFail (some (zeros 96))
    else
      match seckey32 with
      | none => .argFail (some (zeros 96))
      | some seckey32 =>
        let h := ecPubkeyCreateHelper ctx.gen seckey32
        ⟨cInt h.2.2, 0, some (memczero (keypairSave h.1 h.2.1) (!h.2.2))⟩

/-- `secp256k1_keypair_sec`, extrakeys/main_impl.h:214-222.  Memory: `seckey`. -/
def keypairSec (seckey keypair : Option (List UInt8)) : Out (Option (List UInt8)) :=
  match seckey with
  | none => .argFail none
  | some seckey =>
    let seckey := put seckey 0 (zeros 32)
    match keypair with
    | none => .argFail (some seckey)
    | some keypair => ⟨1, 0, some (put seckey 0 (keypair.take 32))⟩

/-- `secp256k1_keypair_pub`, extrakeys/main_impl.h:224-232.  Memory: `pubkey`. -/
def keypairPub (pubkey keypair : Option (List UInt8)) : Out (Option (List UInt8)) :=
  match pubkey with
  | none => .argFail none
  | some _ =>
    match keypair with
    | none => .argFail (some (zeros 64))
    | some keypair => ⟨1, 0, some (put (zeros 64) 0 ((keypair.drop 32).take 64))⟩

/-- `secp256k1_keypair_xonly_pub`, extrakeys/main_impl.h:234-253.  Memory: `pubkey`, `*pk_parity`. -/
def keypairXonlyPub (pubkey : Option (List UInt8)) (pkParity : Option Int)
    (keypair : Option (List UInt8)) : Out (Option (List UInt8) × Option Int) :=
  match pubkey with
  | none => .argFail (none, pkParity)
  | some _ =>
    match keypair with
    | none => .argFail (some (zeros 64), pkParity)
    | some keypair =>
      let pk := keypairLoadPub keypair
      if !pk.2 then ⟨0, 1, (some (zeros 64), pkParity)⟩
      else
        let e := geEvenY pk.1
        ⟨1, 0, (some (pubkeySave e.1), pkParity.map fun _ => e.2)⟩

/-- `secp256k1_keypair_xonly_tweak_add`, extrakeys/main_impl.h:255-283.  Memory: `keypair`. -/
def keypairXonlyTweakAdd (keypair tweak32 : Option (List UInt8)) : Out (Option (List UInt8)) :=
  match keypair with
  | none => .argFail none
  | some keypair =>
    match tweak32 with
    | none => .argFail (some keypair)
    | some tweak32 =>
      let l := keypairLoad keypair
      let e := geEvenY l.2.1
      let sk := if e.2 = 1 then -l.1 else l.1
      let s := ecSeckeyTweakAddHelper sk tweak32
      let p := ecPubkeyTweakAddHelper e.1 tweak32
      let ret := l.2.2 && s.2 && p.2
      ⟨cInt ret, if l.2.2 then 0 else 1, some (if ret then keypairSave s.1 p.1 else zeros 96)⟩

end Secp.Model
