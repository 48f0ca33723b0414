import Verif.Model.Ecdsa
import Verif.Model.Hash

/-!
# Model of the ECDSA functions of `/repo/src/secp256k1.c` and of `/repo/src/modules/recovery`

Conventions as in `Verif/Model/ApiKey.lean`.
-/

namespace Secp.Model

open Spec (beNat beBytes leNat leBytes)
open FeOps

/-- `secp256k1_ecdsa_signature_parse_der`, secp256k1.c:369-383.  `none`: undefined behaviour. -/
def ecdsaSignatureParseDer (sig : Option (List UInt8)) (input : Option (List UInt8)) :
    Option (Out (Option (List UInt8))) :=
  match sig with
  | none => some (.argFail none)
  | some old =>
    match input with
    | none => some (.argFail (some old))
    | some input =>
      match ecdsaSigParse input with
      | .ub => none
      | .ok (r, s) => some ⟨1, 0, some (signatureSave r s)⟩
      | .fail => some ⟨0, 0, some (zeros 64)⟩

/-- `secp256k1_ecdsa_signature_parse_compact`, secp256k1.c:385-404 -/
def ecdsaSignatureParseCompact (sig : Option (List UInt8)) (input64 : Option (List UInt8)) :
    Out (Option (List UInt8)) :=
  match sig with
  | none => .argFail none
  | some old =>
    match input64 with
    | none => .argFail (some old)
    | some input64 =>
      let r := scSetB32 input64
      let s := scSetB32 (input64.drop 32)
      let ret := !r.2 && !s.2
      if ret then ⟨1, 0, some (signatureSave r.1 s.1)⟩ else ⟨0, 0, some (zeros 64)⟩

/-- `secp256k1_ecdsa_signature_serialize_der`, secp256k1.c:406-416.  Memory: `output`,
`*outputlen`. -/
def ecdsaSignatureSerializeDer (output : Option (List UInt8)) (outputlen : Option Nat)
    (sig : Option (List UInt8)) : Out (Option (List UInt8) × Option Nat) :=
  match output with
  | none => .argFail (none, outputlen)
  | some out =>
    match outputlen with
    | none => .argFail (some out, none)
    | some len =>
      match sig with
      | none => .argFail (some out, some len)
      | some sig =>
        let rs := signatureLoad sig
        let o := ecdsaSigSerialize out len rs.1 rs.2
        ⟨cInt o.2.2, 0, (some o.1, some o.2.1)⟩

/-- `secp256k1_ecdsa_signature_serialize_compact`, secp256k1.c:418-429.  Memory: `output64`. -/
def ecdsaSignatureSerializeCompact (output64 : Option (List UInt8)) (sig : Option (List UInt8)) :
    Out (Option (List UInt8)) :=
  match output64 with
  | none => .argFail none
  | some out =>
    match sig with
    | none => .argFail (some out)
    | some sig =>
      let rs := signatureLoad sig
      let out := put out 0 (scGetB32 rs.1)
      let out := put out 32 (scGetB32 rs.2)
      ⟨1, 0, some out⟩

/-- `secp256k1_ecdsa_signature_normalize`, secp256k1.c:431-448.  Memory: `sigout`.  The input is
read before the output is written, so `sigin = sigout` is allowed. -/
def ecdsaSignatureNormalize (sigout : Option (List UInt8)) (sigin : Option (List UInt8)) :
    Out (Option (List UInt8)) :=
  match sigin with
  | none => .argFail sigout
  | some sigin =>
    let rs := signatureLoad sigin
    let ret := scIsHigh rs.2
    match sigout with
    | none => ⟨cInt ret, 0, none⟩
    | some _ =>
      let s := if ret then -rs.2 else rs.2
      ⟨cInt ret, 0, some (signatureSave rs.1 s)⟩

/-- `secp256k1_ecdsa_verify`, secp256k1.c:450-464 -/
def ecdsaVerify (sig msghash32 pubkey : Option (List UInt8)) : Out Unit :=
  match msghash32 with
  | none => .argFail ()
  | some msghash32 =>
    match sig with
    | none => .argFail ()
    | some sig =>
      match pubkey with
      | none => .argFail ()
      | some pubkey =>
        let m := scSetB32 msghash32
        let rs := signatureLoad sig
        if scIsHigh rs.2 then ⟨0, 0, ()⟩
        else
          let q := pubkeyLoad pubkey
          if q.2 then ⟨cInt (ecdsaSigVerify rs.1 rs.2 q.1 m.1), 0, ()⟩
          else ⟨0, 1, ()⟩

/-- The loop of `nonce_function_rfc6979`, secp256k1.c:497-499: `k` calls. -/
def rfc6979Loop : Nat → Hash.Rng → List UInt8 → List UInt8
  | 0, _, nonce32 => nonce32
  | k + 1, rng, _ =>
    let o := Hash.rngGenerate rng 32
    rfc6979Loop k o.2 o.1

/-- The bytes that `nonce_function_rfc6979` puts into `keydata`, secp256k1.c:478-495. -/
def rfc6979Keydata (msg32 key32 : List UInt8) (algo16 data : Option (List UInt8)) : List UInt8 :=
  let msg := scSetB32 msg32
  let keydata := key32.take 32 ++ scGetB32 msg.1
  let keydata := match data with
    | none => keydata
    | some data => keydata ++ data.take 32
  match algo16 with
  | none => keydata
  | some algo16 => keydata ++ algo16.take 16

/-- `nonce_function_rfc6979`, secp256k1.c:471-505: the return value and `nonce32`.  `none`: the call
does not return, because `i <= counter` is always true when `counter` is `UINT_MAX`. -/
def nonceFunctionRfc6979 (msg32 key32 : List UInt8) (algo16 data : Option (List UInt8))
    (counter : UInt32) : Option (Int × List UInt8) :=
  if counter = 0xFFFFFFFF then none
  else
    let rng := Hash.rngInitialize (rfc6979Keydata msg32 key32 algo16 data)
    some (1, rfc6979Loop (counter.toNat + 1) rng (zeros 32))

/-- A nonce function (include/secp256k1.h:94-101), which may keep state: its first argument is the
number of the call.  Result: return value and contents of `nonce32`, or `none` if the call does not
return. -/
abbrev NonceFn :=
  Nat → (msg32 key32 : List UInt8) → (algo16 data : Option (List UInt8)) → (attempt : UInt32) →
    Option (Int × List UInt8)

/-- `noncefp`, or the default when it is NULL, secp256k1.c:522-524. -/
def nonceFnOrDefault : Option NonceFn → NonceFn
  | some f => f
  | none => fun _ => nonceFunctionRfc6979

/-- The values at the end of `secp256k1_ecdsa_sign_inner`'s loop. -/
structure SignSt where
  r : Fn
  s : Fn
  recid : Nat
  ret : Bool

/-- The loop of `secp256k1_ecdsa_sign_inner`, secp256k1.c:530-549, from call number `i` on, where
`count = i mod 2^32`.  `none`: not finished within `fuel` rounds. -/
def signLoop (gen : GenCtx) (noncefp : NonceFn) (msg32 seckey : List UInt8)
    (noncedata : Option (List UInt8)) (sec msg : Fn) : Nat → Nat → SignSt → Option SignSt
  | 0, _, _ => none
  | fuel + 1, i, st =>
    match noncefp i msg32 seckey none noncedata (UInt32.ofNat i) with
    | none => none
    | some (ret, nonce32) =>
      if ret = 0 then some { st with ret := false }
      else
        let non := scSetB32Seckey nonce32
        if non.2 then
          let o := ecdsaSigSign gen sec msg non.1
          if o.ret then some ⟨o.r, o.s, o.recid, true⟩
          else signLoop gen noncefp msg32 seckey noncedata sec msg fuel (i + 1)
            ⟨o.r, o.s, o.recid, false⟩
        else signLoop gen noncefp msg32 seckey noncedata sec msg fuel (i + 1) st

/-- `secp256k1_ecdsa_sign_inner`, secp256k1.c:510-564 -/
def ecdsaSignInner (fuel : Nat) (ctx : Ctx) (msg32 seckey : List UInt8) (noncefp : Option NonceFn)
    (noncedata : Option (List UInt8)) : Option SignSt :=
  let s := scSetB32Seckey seckey
  let sec := scCmov s.1 1 (!s.2)
  let msg := scSetB32 msg32
  match signLoop ctx.gen (nonceFnOrDefault noncefp) msg32 seckey noncedata sec msg.1 fuel 0
    ⟨0, 0, 0, false⟩ with
  | none => none
  | some st =>
    let ret := st.ret && s.2
    some ⟨scCmov st.r 0 (!ret), scCmov st.s 0 (!ret), if !ret then 0 else st.recid, ret⟩

/-- `secp256k1_ecdsa_sign`, secp256k1.c:566-578.  Memory: `signature`. -/
def ecdsaSign (fuel : Nat) (ctx : Ctx) (signature msghash32 seckey : Option (List UInt8))
    (noncefp : Option NonceFn) (noncedata : Option (List UInt8)) :
    Option (Out (Option (List UInt8))) :=
  if !ecmultGenIsBuilt ctx.gen then some (.argFail signature)
  else
    match msghash32 with
    | none => some (.argFail signature)
    | some msghash32 =>
      match signature with
      | none => some (.argFail none)
      | some old =>
        match seckey with
        | none => some (.argFail (some old))
        | some seckey =>
          match ecdsaSignInner fuel ctx msghash32 seckey noncefp noncedata with
          | none => none
          | some st => some ⟨cInt st.ret, 0, some (signatureSave st.r st.s)⟩

/-! ## Recovery -/

/-- `secp256k1_ecdsa_recoverable_signature_load`, recovery/main_impl.h:12-25 -/
def recoverableLoad (sig : List UInt8) : Fn × Fn × Nat :=
  ((leNat (sig.take 32) : Fn), (leNat ((sig.drop 32).take 32) : Fn), (sig.getD 64 0).toNat)

/-- `secp256k1_ecdsa_recoverable_signature_save`, recovery/main_impl.h:27-36 -/
def recoverableSave (r s : Fn) (recid : Nat) : List UInt8 :=
  leBytes 32 r.val ++ leBytes 32 s.val ++ [UInt8.ofNat recid]

/-- `secp256k1_ecdsa_recoverable_signature_parse_compact`, recovery/main_impl.h:38-58 -/
def recoverableParseCompact (sig input64 : Option (List UInt8)) (recid : Int) :
    Out (Option (List UInt8)) :=
  match sig with
  | none => .argFail none
  | some old =>
    match input64 with
    | none => .argFail (some old)
    | some input64 =>
      if ¬ (recid ≥ 0 ∧ recid ≤ 3) then .argFail (some old)
      else
        let r := scSetB32 input64
        let s := scSetB32 (input64.drop 32)
        let ret := !r.2 && !s.2
        if ret then ⟨1, 0, some (recoverableSave r.1 s.1 recid.toNat)⟩
        else ⟨0, 0, some (zeros 65)⟩

/-- `secp256k1_ecdsa_recoverable_signature_serialize_compact`, recovery/main_impl.h:60-72.  Memory:
`output64`, `*recid`. -/
def recoverableSerializeCompact (output64 : Option (List UInt8)) (recid : Option Int)
    (sig : Option (List UInt8)) : Out (Option (List UInt8) × Option Int) :=
  match output64 with
  | none => .argFail (none, recid)
  | some out =>
    match sig with
    | none => .argFail (some out, recid)
    | some sig =>
      match recid with
      | none => .argFail (some out, none)
      | some _ =>
        let l := recoverableLoad sig
        let out := put out 0 (scGetB32 l.1)
        let out := put out 32 (scGetB32 l.2.1)
        ⟨1, 0, (some out, some l.2.2)⟩

/-- `secp256k1_ecdsa_recoverable_signature_convert`, recovery/main_impl.h:74-85.  Memory: `sig`. -/
def recoverableConvert (sig sigin : Option (List UInt8)) : Out (Option (List UInt8)) :=
  match sig with
  | none => .argFail none
  | some old =>
    match sigin with
    | none => .argFail (some old)
    | some sigin =>
      let l := recoverableLoad sigin
      ⟨1, 0, some (signatureSave l.1 l.2.1)⟩

/-- The x coordinate that `secp256k1_ecdsa_sig_recover` tries, recovery/main_impl.h:100-110; `none`
if it is too large. -/
def recoverX (sigr : Fn) (recid : Nat) : Option Fp :=
  let fx := (feSetB32Limit (scGetB32 sigr)).1
  if recid &&& 2 ≠ 0 then
    if feCmpVar fx ecdsaPMinusOrder ≥ 0 then none else some (FeOps.add fx ecdsaOrderAsFe)
  else some fx

/-- `secp256k1_ecdsa_sig_recover`, recovery/main_impl.h:87-121: the key, if it returns 1. -/
def ecdsaSigRecover (sigr sigs message : Fn) (recid : Nat) : Option (Ge Fp) :=
  if scIsZero sigr || scIsZero sigs then none
  else
    match recoverX sigr recid with
    | none => none
    | some fx =>
      let x := geSetXoVar fx (recid &&& 1 ≠ 0)
      if !x.2 then none
      else
        let rn := sigr⁻¹
        let u1 := rn * message
        let u1 := -u1
        let u2 := rn * sigs
        let qj := ecmult (gejSetGe x.1) u2 (some u1)
        if !qj.infinity then some (geSetGej qj) else none

/-- `secp256k1_ecdsa_sign_recoverable`, recovery/main_impl.h:123-135.  Memory: `signature`. -/
def ecdsaSignRecoverable (fuel : Nat) (ctx : Ctx) (signature msghash32 seckey : Option (List UInt8))
    (noncefp : Option NonceFn) (noncedata : Option (List UInt8)) :
    Option (Out (Option (List UInt8))) :=
  if !ecmultGenIsBuilt ctx.gen then some (.argFail signature)
  else
    match msghash32 with
    | none => some (.argFail signature)
    | some msghash32 =>
      match signature with
      | none => some (.argFail none)
      | some old =>
        match seckey with
        | none => some (.argFail (some old))
        | some seckey =>
          match ecdsaSignInner fuel ctx msghash32 seckey noncefp noncedata with
          | none => none
          | some st => some ⟨cInt st.ret, 0, some (recoverableSave st.r st.s st.recid)⟩

/-- `secp256k1_ecdsa_recover`, recovery/main_impl.h:137-157.  Memory: `pubkey`. -/
def ecdsaRecover (pubkey signature msghash32 : Option (List UInt8)) : Out (Option (List UInt8)) :=
  match msghash32 with
  | none => .argFail pubkey
  | some msghash32 =>
    match signature with
    | none => .argFail pubkey
    | some signature =>
      match pubkey with
      | none => .argFail none
      | some _ =>
        let l := recoverableLoad signature
        let m := scSetB32 msghash32
        match ecdsaSigRecover l.1 l.2.1 m.1 l.2.2 with
        | some q => ⟨1, 0, some (pubkeySave q)⟩
        | none => ⟨0, 0, some (zeros 64)⟩

end Secp.Model
