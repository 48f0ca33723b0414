import Verif.Model.MusigKeyagg
import Verif.Model.GroupAll

/-!
# Model of `/repo/src/modules/musig/session_impl.h`

An array of pointers to objects with its length is the list of the objects: the entries are not NULL.
-/

namespace Secp.Model

open FeOps

/-- `secp256k1_musig_ge_serialize_ext`, session_impl.h:24-38 -/
def musigGeSerializeExt (ge : Ge Fp) : List UInt8 :=
  if ge.infinity then zeros 33 else (eckeyPubkeySerialize ge (zeros 33) 33 true).1

/-- `secp256k1_musig_ge_parse_ext`, session_impl.h:42-53: `none` is the return value 0. -/
def musigGeParseExt (in33 : List UInt8) : Option (Ge Fp) :=
  if memcmpVar in33 (zeros 33) 33 = 0 then some geInfinity
  else
    let q := eckeyPubkeyParse (in33.take 33)
    if !q.2 then none else if geIsInCorrectSubgroup q.1 then some q.1 else none

/-- `secp256k1_musig_secnonce_magic`, session_impl.h:55 -/
def secnonceMagic : List UInt8 := [0x22, 0x0e, 0xdc, 0xf1]

/-- `secp256k1_musig_secnonce_save`, session_impl.h:57-62 -/
def secnonceSave (k0 k1 : Fn) (pk : Ge Fp) : List UInt8 :=
  secnonceMagic ++ scGetB32 k0 ++ scGetB32 k1 ++ geToBytes pk

/-- `secp256k1_musig_secnonce_load`, session_impl.h:64-77; `none` is the return value 0, after one call
of the illegal callback. -/
def secnonceLoad (secnonce : List UInt8) : Option (Fn × Fn × Ge Fp) :=
  if memcmpVar secnonce secnonceMagic 4 ≠ 0 then none
  else if isZeroArray ((secnonce.drop 4).take 64) then none
  else some ((scSetB32 (secnonce.drop 4)).1, (scSetB32 (secnonce.drop 36)).1,
    geFromBytes (secnonce.drop 68))

/-- `secp256k1_musig_secnonce_invalidate`, session_impl.h:80-88 -/
def secnonceInvalidate (secnonce : List UInt8) (flag : Bool) : List UInt8 := memczero secnonce flag

/-- `secp256k1_musig_pubnonce_magic`, session_impl.h:90 -/
def pubnonceMagic : List UInt8 := [0xf5, 0x7a, 0x3d, 0xa0]

/-- `secp256k1_musig_pubnonce_save`, session_impl.h:94-100 -/
def pubnonceSave (a b : Ge Fp) : List UInt8 := pubnonceMagic ++ geToBytes a ++ geToBytes b

/-- `secp256k1_musig_pubnonce_load`, session_impl.h:104-112; `none` as for `secnonceLoad`. -/
def pubnonceLoad (nonce : List UInt8) : Option (Ge Fp × Ge Fp) :=
  if memcmpVar nonce pubnonceMagic 4 ≠ 0 then none
  else some (geFromBytes (nonce.drop 4), geFromBytes (nonce.drop 68))

/-- `secp256k1_musig_aggnonce_magic`, session_impl.h:114 -/
def aggnonceMagic : List UInt8 := [0xa8, 0xb7, 0xe4, 0x67]

/-- `secp256k1_musig_aggnonce_save`, session_impl.h:116-122 -/
def aggnonceSave (a b : Ge Fp) : List UInt8 := aggnonceMagic ++ geToBytesExt a ++ geToBytesExt b

/-- `secp256k1_musig_aggnonce_load`, session_impl.h:124-132; `none` as for `secnonceLoad`. -/
def aggnonceLoad (nonce : List UInt8) : Option (Ge Fp × Ge Fp) :=
  if memcmpVar nonce aggnonceMagic 4 ≠ 0 then none
  else some (geFromBytesExt (nonce.drop 4), geFromBytesExt (nonce.drop 68))

/-- `secp256k1_musig_session_cache_magic`, session_impl.h:134 -/
def sessionMagic : List UInt8 := [0x9d, 0xed, 0xe9, 0x17]

/-- `secp256k1_musig_session_internal`, session.h:14-20 -/
structure Session where
  finNonceParity : Nat
  finNonce : List UInt8
  noncecoef : Fn
  challenge : Fn
  sPart : Fn

/-- `secp256k1_musig_session_save`, session_impl.h:144-158 -/
def sessionSave (s : Session) : List UInt8 :=
  sessionMagic ++ [UInt8.ofNat s.finNonceParity] ++ s.finNonce ++ scGetB32 s.noncecoef ++
    scGetB32 s.challenge ++ scGetB32 s.sPart

/-- `secp256k1_musig_session_load`, session_impl.h:160-175; `none` as for `secnonceLoad`. -/
def sessionLoad (session : List UInt8) : Option Session :=
  if memcmpVar session sessionMagic 4 ≠ 0 then none
  else some
    { finNonceParity := (session.getD 4 0).toNat
      finNonce := (session.drop 5).take 32
      noncecoef := (scSetB32 (session.drop 37)).1
      challenge := (scSetB32 (session.drop 69)).1
      sPart := (scSetB32 (session.drop 101)).1 }

/-- `secp256k1_musig_partial_sig_magic`, session_impl.h:177 -/
def partialSigMagic : List UInt8 := [0xeb, 0xfb, 0x1a, 0x32]

/-- `secp256k1_musig_partial_sig_save`, session_impl.h:179-182 -/
def partialSigSave (s : Fn) : List UInt8 := partialSigMagic ++ scGetB32 s

/-- `secp256k1_musig_partial_sig_load`, session_impl.h:184-192; `none` as for `secnonceLoad`. -/
def partialSigLoad (sig : List UInt8) : Option Fn :=
  if memcmpVar sig partialSigMagic 4 ≠ 0 then none else some (scSetB32 (sig.drop 4)).1

/-- `secp256k1_musig_pubnonce_parse`, session_impl.h:194-212.  Memory: `nonce`. -/
def musigPubnonceParse (nonce in66 : Option (List UInt8)) : Out (Option (List UInt8)) :=
  match nonce with
  | none => .argFail none
  | some old =>
    match in66 with
    | none => .argFail (some old)
    | some in66 =>
      let a := eckeyPubkeyParse (in66.take 33)
      if !a.2 then ⟨0, 0, some old⟩
      else if !geIsInCorrectSubgroup a.1 then ⟨0, 0, some old⟩
      else
        let b := eckeyPubkeyParse ((in66.drop 33).take 33)
        if !b.2 then ⟨0, 0, some old⟩
        else if !geIsInCorrectSubgroup b.1 then ⟨0, 0, some old⟩
        else ⟨1, 0, some (pubnonceSave a.1 b.1)⟩

/-- `secp256k1_musig_pubnonce_serialize`, session_impl.h:214-238.  Memory: `out66`.  The C code
serializes directly into `out66`. -/
def musigPubnonceSerialize (out66 nonce : Option (List UInt8)) : Out (Option (List UInt8)) :=
  match out66 with
  | none => .argFail none
  | some out =>
    let out := put out 0 (zeros 66)
    match nonce with
    | none => .argFail (some out)
    | some nonce =>
      match pubnonceLoad nonce with
      | none => .argFail (some out)
      | some (a, b) =>
        let out := put out 0 (eckeyPubkeySerialize a (zeros 33) 33 true).1
        let out := put out 33 (eckeyPubkeySerialize b (zeros 33) 33 true).1
        ⟨1, 0, some out⟩

/-- `secp256k1_musig_aggnonce_parse`, session_impl.h:240-255.  Memory: `nonce`. -/
def musigAggnonceParse (nonce in66 : Option (List UInt8)) : Out (Option (List UInt8)) :=
  match nonce with
  | none => .argFail none
  | some old =>
    match in66 with
    | none => .argFail (some old)
    | some in66 =>
      match musigGeParseExt in66 with
      | none => ⟨0, 0, some old⟩
      | some a =>
        match musigGeParseExt (in66.drop 33) with
        | none => ⟨0, 0, some old⟩
        | some b => ⟨1, 0, some (aggnonceSave a b)⟩

/-- `secp256k1_musig_aggnonce_serialize`, session_impl.h:257-273.  Memory: `out66`. -/
def musigAggnonceSerialize (out66 nonce : Option (List UInt8)) : Out (Option (List UInt8)) :=
  match out66 with
  | none => .argFail none
  | some out =>
    let out := put out 0 (zeros 66)
    match nonce with
    | none => .argFail (some out)
    | some nonce =>
      match aggnonceLoad nonce with
      | none => .argFail (some out)
      | some (a, b) =>
        let out := put out 0 (musigGeSerializeExt a)
        let out := put out 33 (musigGeSerializeExt b)
        ⟨1, 0, some out⟩

/-- `secp256k1_musig_partial_sig_parse`, session_impl.h:275-292.  Memory: `sig`. -/
def musigPartialSigParse (sig in32 : Option (List UInt8)) : Out (Option (List UInt8)) :=
  match sig with
  | none => .argFail none
  | some old =>
    match in32 with
    | none => .argFail (some old)
    | some in32 =>
      let tmp := scSetB32 in32
      if tmp.2 then ⟨0, 0, some (zeros 36)⟩ else ⟨1, 0, some (partialSigSave tmp.1)⟩

/-- `secp256k1_musig_partial_sig_serialize`, session_impl.h:294-302.  Memory: `out32`. -/
def musigPartialSigSerialize (out32 sig : Option (List UInt8)) : Out (Option (List UInt8)) :=
  match out32 with
  | none => .argFail none
  | some out =>
    match sig with
    | none => .argFail (some out)
    | some sig =>
      if memcmpVar sig partialSigMagic 4 ≠ 0 then .argFail (some out)
      else ⟨1, 0, some (put out 0 ((sig.drop 4).take 32))⟩

/-- `secp256k1_nonce_function_musig_helper`, session_impl.h:305-320; `len` is the length that every
caller passes for its data. -/
def musigNonceHelper (sha : Hash.Sha) (prefixSize : Nat) (data : Option (List UInt8)) (len : Nat) :
    Hash.Sha :=
  let sha := Hash.write sha (zeros (prefixSize - 1))
  match data with
  | some data =>
    let sha := Hash.write sha [UInt8.ofNat len]
    Hash.write sha (data.take len)
  | none => Hash.write sha [0]

/-- `secp256k1_nonce_function_musig_sha256_tagged_aux`, session_impl.h:324-335 -/
def musigAuxMid : List UInt32 :=
  [0xa19e884b, 0xf463fe7e, 0x2f18f9a2, 0xbeb0f9ff, 0x0f37e8b0, 0x06ebd26f, 0xe3b243d2, 0x522fb150]

/-- `secp256k1_nonce_function_musig_sha256_tagged`, session_impl.h:339-350 -/
def musigNonceMid : List UInt32 :=
  [0x07101b64, 0x18003414, 0x0391bc43, 0x0e6258ee, 0x29d26b72, 0x8343937e, 0xb7a0a4fb, 0xff568a30]

/-- `rand`, session_impl.h:358-367 -/
def musigRand (sessionSecrand : List UInt8) : Option (List UInt8) → List UInt8
  | some seckey32 =>
    let sha := shaMidstate Hash.uninit musigAuxMid
    let sha := Hash.write sha (sessionSecrand.take 32)
    xor32 (Hash.finalize sha).1 (seckey32.take 32)
  | none => sessionSecrand.take 32

/-- The hash state before the loop of `secp256k1_nonce_function_musig`, session_impl.h:369-378. -/
def musigNonceState (rand : List UInt8) (msg32 : Option (List UInt8)) (pk33 : List UInt8)
    (aggPk32 extraInput32 : Option (List UInt8)) : Hash.Sha :=
  let sha := shaMidstate Hash.uninit musigNonceMid
  let sha := Hash.write sha rand
  let sha := musigNonceHelper sha 1 (some pk33) 33
  let sha := musigNonceHelper sha 1 aggPk32 32
  let sha := Hash.write sha [if msg32.isSome then 1 else 0]
  let sha := if msg32.isSome then musigNonceHelper sha 8 msg32 32 else sha
  musigNonceHelper sha 4 extraInput32 32

/-- One round of the loop of `secp256k1_nonce_function_musig`, session_impl.h:380-390. -/
def musigNonceK (sha : Hash.Sha) (i : UInt8) : Fn :=
  (scSetB32 (Hash.finalize (Hash.write sha [i])).1).1

/-- `secp256k1_nonce_function_musig`, session_impl.h:352-393: `k[0]` and `k[1]`. -/
def nonceFunctionMusig (sessionSecrand : List UInt8) (msg32 seckey32 : Option (List UInt8))
    (pk33 : List UInt8) (aggPk32 extraInput32 : Option (List UInt8)) : Fn × Fn :=
  let sha := musigNonceState (musigRand sessionSecrand seckey32) msg32 pk33 aggPk32 extraInput32
  (musigNonceK sha 0, musigNonceK sha 1)

/-- session_impl.h:442-466, once all inputs are loaded: `secnonce` and `pubnonce`. -/
def musigNonceGenCore (gen : GenCtx) (inputNonce : List UInt8) (seckey msg32 : Option (List UInt8))
    (pk : Ge Fp) (aggPk32 extraInput32 : Option (List UInt8)) (ret : Bool) :
    List UInt8 × List UInt8 :=
  let pkSer := (eckeyPubkeySerialize pk (zeros 33) 33 true).1
  let k := nonceFunctionMusig inputNonce msg32 seckey pkSer aggPk32 extraInput32
  let secnonce := secnonceInvalidate (secnonceSave k.1 k.2 pk) (!ret)
  let pts := geSetAllGej [ecmultGen gen k.1, ecmultGen gen k.2]
  (secnonce, pubnonceSave (pts.getD 0 geGarbage) (pts.getD 1 geGarbage))

/-- Whether `seckey` is NULL or valid, session_impl.h:413-418. -/
def nonceGenSeckeyOk : Option (List UInt8) → Bool
  | none => true
  | some seckey => (scSetB32Seckey seckey).2

/-- `aggpk_ser_ptr`, session_impl.h:420-428: `none` if the cache is not valid, `some none` if it is NULL. -/
def nonceGenAggPk : Option (List UInt8) → Option (Option (List UInt8))
  | none => some none
  | some cache => (keyaggCacheLoad cache).map fun c => some (feGetB32 c.pk.x)

/-- `secp256k1_musig_nonce_gen_internal`, session_impl.h:395-467.  Memory: `secnonce`, `pubnonce`.
`secnonce` is not NULL. -/
def musigNonceGenInternal (ctx : Ctx) (secnonce : List UInt8) (pubnonce : Option (List UInt8))
    (inputNonce : List UInt8) (seckey pubkey msg32 cache extraInput32 : Option (List UInt8)) :
    Out (List UInt8 × Option (List UInt8)) :=
  match pubnonce with
  | none => .argFail (secnonce, none)
  | some _ =>
    match pubkey with
    | none => .argFail (secnonce, some (zeros 132))
    | some pubkey =>
      if !ecmultGenIsBuilt ctx.gen then .argFail (secnonce, some (zeros 132))
      else
        let ret := nonceGenSeckeyOk seckey
        match nonceGenAggPk cache with
        | none => .argFail (secnonce, some (zeros 132))
        | some aggPk32 =>
          let pk := pubkeyLoad pubkey
          if !pk.2 then ⟨0, 1, (secnonce, some (zeros 132))⟩
          else
            let r := musigNonceGenCore ctx.gen inputNonce seckey msg32 pk.1 aggPk32 extraInput32 ret
            ⟨cInt ret, 0, (r.1, some r.2)⟩

/-- `secp256k1_musig_nonce_gen`, session_impl.h:469-495.  Memory: `secnonce`, `pubnonce`,
`session_secrand32`. -/
def musigNonceGen (ctx : Ctx) (secnonce pubnonce sessionSecrand32
    seckey pubkey msg32 cache extraInput32 : Option (List UInt8)) :
    Out (Option (List UInt8) × Option (List UInt8) × Option (List UInt8)) :=
  match secnonce with
  | none => .argFail (none, pubnonce, sessionSecrand32)
  | some _ =>
    match sessionSecrand32 with
    | none => .argFail (some (zeros 132), pubnonce, none)
    | some rand =>
      if isZeroArray (rand.take 32) then
        ⟨0, 0, (some (secnonceInvalidate (zeros 132) true), pubnonce, some rand)⟩
      else
        let r := musigNonceGenInternal ctx (zeros 132) pubnonce rand seckey pubkey msg32 cache
          extraInput32
        ⟨r.ret, r.illegal,
          (some r.val.1, r.val.2,
            some (put rand 0 (memczero (rand.take 32) (decide (r.ret ≠ 0)))))⟩

/-- `secp256k1_musig_nonce_gen_counter`, session_impl.h:497-523.  Memory: `secnonce`, `pubnonce`. -/
def musigNonceGenCounter (ctx : Ctx) (secnonce pubnonce : Option (List UInt8)) (cnt : UInt64)
    (keypair msg32 cache extraInput32 : Option (List UInt8)) :
    Out (Option (List UInt8) × Option (List UInt8)) :=
  match secnonce with
  | none => .argFail (none, pubnonce)
  | some _ =>
    match keypair with
    | none => .argFail (some (zeros 132), pubnonce)
    | some keypair =>
      let buf := Spec.beBytes 8 cnt.toNat ++ zeros 24
      let seckey := keypairSec (some (zeros 32)) (some keypair)
      let pubkey := keypairPub (some (zeros 64)) (some keypair)
      let r := musigNonceGenInternal ctx (zeros 132) pubnonce buf seckey.val pubkey.val msg32 cache
        extraInput32
      ⟨if r.ret = 0 then 0 else 1, r.illegal, (some r.val.1, r.val.2)⟩

/-- The loop of `secp256k1_musig_sum_pubnonces`, session_impl.h:532-540. -/
def sumPubnoncesLoop : List (List UInt8) → Gej Fp → Gej Fp → Option (Gej Fp × Gej Fp)
  | [], s0, s1 => some (s0, s1)
  | nonce :: rest, s0, s1 =>
    match pubnonceLoad nonce with
    | none => none
    | some (a, b) => sumPubnoncesLoop rest (gejAddGeVar s0 a).1 (gejAddGeVar s1 b).1

/-- `secp256k1_musig_sum_pubnonces`, session_impl.h:525-542; `none` as for `secnonceLoad`. -/
def sumPubnonces (pubnonces : List (List UInt8)) : Option (Gej Fp × Gej Fp) :=
  sumPubnoncesLoop pubnonces gejInfinity gejInfinity

/-- `secp256k1_musig_nonce_agg`, session_impl.h:544-558.  Memory: `aggnonce`. -/
def musigNonceAgg (aggnonce : Option (List UInt8)) (pubnonces : Option (List (List UInt8))) :
    Out (Option (List UInt8)) :=
  match aggnonce with
  | none => .argFail none
  | some old =>
    match pubnonces with
    | none => .argFail (some old)
    | some pubnonces =>
      if ¬ pubnonces.length > 0 then .argFail (some old)
      else
        match sumPubnonces pubnonces with
        | none => .argFail (some old)
        | some (s0, s1) =>
          let pts := geSetAllGejVar [s0, s1]
          ⟨1, 0, some (aggnonceSave (pts.getD 0 geGarbage) (pts.getD 1 geGarbage))⟩

/-- `secp256k1_musig_compute_noncehash_sha256_tagged`, session_impl.h:562-573 -/
def musigNoncecoefMid : List UInt32 :=
  [0x2c7d5a45, 0x06bf7e53, 0x89be68a6, 0x971254c0, 0x60ac12d2, 0x72846dcd, 0x6c81212f, 0xde7a2500]

/-- `secp256k1_musig_compute_noncehash`, session_impl.h:576-589 -/
def computeNoncehash (a b : Ge Fp) (aggPk32 msg : List UInt8) : List UInt8 :=
  let sha := shaMidstate Hash.uninit musigNoncecoefMid
  let sha := Hash.write sha (musigGeSerializeExt a)
  let sha := Hash.write sha (musigGeSerializeExt b)
  let sha := Hash.write sha (aggPk32.take 32)
  let sha := Hash.write sha (msg.take 32)
  (Hash.finalize sha).1

/-- `secp256k1_effective_nonce`, session_impl.h:592-598 -/
def effectiveNonce (n0 n1 : Ge Fp) (b : Fn) : Gej Fp :=
  let out := ecmult (gejSetGe n1) b none
  (gejAddGeVar out n0).1

/-- `secp256k1_musig_nonce_process_internal`, session_impl.h:600-618: `*fin_nonce_parity`, `fin_nonce`,
`*b`. -/
def nonceProcessInternal (n0 n1 : Ge Fp) (aggPk32 msg : List UInt8) : Nat × List UInt8 × Fn :=
  let b := (scSetB32 (computeNoncehash n0 n1 aggPk32 msg)).1
  let pt := geSetGej (effectiveNonce n0 n1 b)
  let pt := if pt.infinity then geConstG else pt
  (if feIsOdd (FeOps.normalize pt.y) then 1 else 0, feGetB32 (FeOps.normalize pt.x), b)

/-- The session made from the loaded values, session_impl.h:636-655. -/
def musigSession (c : KeyaggCache) (n0 n1 : Ge Fp) (msg32 : List UInt8) : Session :=
  let aggPk32 := feGetB32 c.pk.x
  let np := nonceProcessInternal n0 n1 aggPk32 msg32
  let e := schnorrsigChallenge np.2.1 (msg32.take 32) aggPk32
  let sPart : Fn :=
    if !scIsZero c.tweak then
      let t := e * c.tweak
      if feIsOdd c.pk.y then -t else t
    else 0
  { finNonceParity := np.1, finNonce := np.2.1, noncecoef := np.2.2, challenge := e, sPart := sPart }

/-- `secp256k1_musig_nonce_process`, session_impl.h:620-658.  Memory: `session`. -/
def musigNonceProcess (session aggnonce msg32 cache : Option (List UInt8)) :
    Out (Option (List UInt8)) :=
  match session with
  | none => .argFail none
  | some old =>
    match aggnonce with
    | none => .argFail (some old)
    | some aggnonce =>
      match msg32 with
      | none => .argFail (some old)
      | some msg32 =>
        match cache with
        | none => .argFail (some old)
        | some cache =>
          match keyaggCacheLoad cache with
          | none => .argFail (some old)
          | some c =>
            match aggnonceLoad aggnonce with
            | none => .argFail (some old)
            | some (n0, n1) => ⟨1, 0, some (sessionSave (musigSession c n0 n1 msg32))⟩

/-- The arithmetic of `secp256k1_musig_partial_sign`, session_impl.h:704-730. -/
def partialSignValue (sk k0 k1 : Fn) (pk : Ge Fp) (c : KeyaggCache) (s : Session) : Fn :=
  let sk := if (if feIsOdd c.pk.y then 1 else 0) ≠ c.parityAcc then -sk else sk
  let mu := keyaggCoef c pk
  let sk := sk * mu
  let k0 := if s.finNonceParity ≠ 0 then -k0 else k0
  let k1 := if s.finNonceParity ≠ 0 then -k1 else k1
  let sv := s.challenge * sk
  let k1 := s.noncecoef * k1
  let k0 := k0 + k1
  sv + k0

/-- session_impl.h:688-734, after the secret nonce has been loaded and zeroed: the outcome for
`partial_sig`. -/
def partialSignWith (partialSig keypair cache session : Option (List UInt8)) (k0 k1 : Fn)
    (pk : Ge Fp) : Out (Option (List UInt8)) :=
  match partialSig with
  | none => .argFail none
  | some old =>
    match keypair with
    | none => .argFail (some old)
    | some keypair =>
      match cache with
      | none => .argFail (some old)
      | some cache =>
        match session with
        | none => .argFail (some old)
        | some session =>
          let l := keypairLoad keypair
          if !l.2.2 then .argFail (some old)
          else if !(FeOps.equal pk.x l.2.1.x && FeOps.equal pk.y l.2.1.y) then .argFail (some old)
          else
            match keyaggCacheLoad cache with
            | none => .argFail (some old)
            | some c =>
              match sessionLoad session with
              | none => .argFail (some old)
              | some s => ⟨1, 0, some (partialSigSave (partialSignValue l.1 k0 k1 pk c s))⟩

/-- `secp256k1_musig_partial_sign`, session_impl.h:666-734.  Memory: `partial_sig`, `secnonce`. -/
def musigPartialSign (partialSig secnonce keypair cache session : Option (List UInt8)) :
    Out (Option (List UInt8) × Option (List UInt8)) :=
  match secnonce with
  | none => .argFail (partialSig, none)
  | some secnonce =>
    match secnonceLoad secnonce with
    | none => ⟨0, 1, (partialSig, some (zeros 132))⟩
    | some (k0, k1, pk) =>
      let r := partialSignWith partialSig keypair cache session k0 k1 pk
      ⟨r.ret, r.illegal, (r.val, some (zeros 132))⟩

/-- The arithmetic of `secp256k1_musig_partial_sig_verify`, session_impl.h:760-796. -/
def partialSigCheck (s : Fn) (n0 n1 pkp : Ge Fp) (c : KeyaggCache) (sess : Session) : Bool :=
  let rj := effectiveNonce n0 n1 sess.noncecoef
  let mu := keyaggCoef c pkp
  let e := sess.challenge * mu
  let e := if (if feIsOdd c.pk.y then 1 else 0) ≠ c.parityAcc then -e else e
  let s := -s
  let tmp := ecmult (gejSetGe pkp) e (some s)
  let rj := if sess.finNonceParity ≠ 0 then gejNeg rj else rj
  let tmp := (gejAddVar tmp rj).1
  tmp.infinity

/-- `secp256k1_musig_partial_sig_verify`, session_impl.h:736-797 -/
def musigPartialSigVerify (partialSig pubnonce pubkey cache session : Option (List UInt8)) :
    Out Unit :=
  match partialSig with
  | none => .argFail ()
  | some partialSig =>
    match pubnonce with
    | none => .argFail ()
    | some pubnonce =>
      match pubkey with
      | none => .argFail ()
      | some pubkey =>
        match cache with
        | none => .argFail ()
        | some cache =>
          match session with
          | none => .argFail ()
          | some session =>
            match sessionLoad session with
            | none => .argFail ()
            | some sess =>
              match pubnonceLoad pubnonce with
              | none => .argFail ()
              | some (n0, n1) =>
                let pkp := pubkeyLoad pubkey
                if !pkp.2 then .argFail ()
                else
                  match keyaggCacheLoad cache with
                  | none => .argFail ()
                  | some c =>
                    match partialSigLoad partialSig with
                    | none => .argFail ()
                    | some s => ⟨cInt (partialSigCheck s n0 n1 pkp.1 c sess), 0, ()⟩

/-- The loop of `secp256k1_musig_partial_sig_agg`, session_impl.h:812-818; `none` as for
`secnonceLoad`. -/
def partialSigSum : List (List UInt8) → Fn → Option Fn
  | [], s => some s
  | sig :: rest, s =>
    match partialSigLoad sig with
    | none => none
    | some term => partialSigSum rest (s + term)

/-- `secp256k1_musig_partial_sig_agg`, session_impl.h:799-822.  Memory: `sig64`. -/
def musigPartialSigAgg (sig64 session : Option (List UInt8)) (sigs : Option (List (List UInt8))) :
    Out (Option (List UInt8)) :=
  match sig64 with
  | none => .argFail none
  | some old =>
    match session with
    | none => .argFail (some old)
    | some session =>
      match sigs with
      | none => .argFail (some old)
      | some sigs =>
        if ¬ sigs.length > 0 then .argFail (some old)
        else
          match sessionLoad session with
          | none => .argFail (some old)
          | some sess =>
            match partialSigSum sigs sess.sPart with
            | none => .argFail (some old)
            | some s =>
              let out := put old 32 (scGetB32 s)
              ⟨1, 0, some (put out 0 (sess.finNonce.take 32))⟩

end Secp.Model
