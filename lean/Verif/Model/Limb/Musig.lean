import Verif.Model.Limb.Api
import Verif.Model.MusigSession

/-!
# The MuSig module over any field implementation

As `Verif/Model/Limb/Api.lean`: the definitions of `Verif/Model/MusigKeyagg.lean` and `MusigSession.lean` with the
field elements in limbs.  `secp256k1_eckey_pubkey_serialize` normalizes its argument in place; what the code does
with the point afterwards starts here from the coordinates as they were before.
-/

namespace Secp.Model.Limb

open FeOps

variable {α : Type} [FeOps α] [FeMem α]

/-- `secp256k1_ge_to_bytes_ext`, group_impl.h:995-1001 -/
def geToBytesExt (a : Ge α) : List UInt8 := if a.infinity then zeros 64 else geToBytes a

/-- `secp256k1_ge_from_bytes_ext`, group_impl.h:1003-1010 -/
def geFromBytesExt (α : Type) [FeOps α] [FeMem α] (b : List UInt8) : Ge α :=
  if memcmpVar b (zeros 64) 64 = 0 then geInfinity else geFromBytes α b

/-- `secp256k1_keyagg_cache_internal`, keyagg.h:15-26 -/
structure KeyaggCache (α : Type) where
  pk : Ge α
  secondPk : Ge α
  pksHash : List UInt8
  tweak : Fn
  parityAcc : Nat

/-- `secp256k1_keyagg_cache_save`, keyagg_impl.h:31-44 -/
def keyaggCacheSave (c : KeyaggCache α) : List UInt8 :=
  cacheMagic ++ geToBytes c.pk ++ geToBytesExt c.secondPk ++ c.pksHash ++
    [UInt8.ofNat c.parityAcc] ++ scGetB32 c.tweak

/-- `secp256k1_keyagg_cache_load`, keyagg_impl.h:46-60; `none` is the return value 0, after one call of
the illegal callback. -/
def keyaggCacheLoad (α : Type) [FeOps α] [FeMem α]
    (cache : List UInt8) : Option (KeyaggCache α) :=
  if memcmpVar cache cacheMagic 4 ≠ 0 then none
  else some
    { pk := geFromBytes α (cache.drop 4)
      secondPk := geFromBytesExt α (cache.drop 68)
      pksHash := (cache.drop 132).take 32
      parityAcc := (cache.getD 164 0 &&& 1).toNat
      tweak := (scSetB32 (cache.drop 165)).1 }

/-- The loop of `secp256k1_musig_compute_pks_hash`, keyagg_impl.h:84-92; `none` is the return value 0,
after one call of the illegal callback. -/
def pksHashLoop (α : Type) [FeOps α] [FeMem α]
    : List (List UInt8) → Hash.Sha → Option Hash.Sha
  | [], sha => some sha
  | pk :: rest, sha =>
    let r := ecPubkeySerialize α (some (zeros 33)) (some 33) (some pk) ecCompressed
    if r.ret = 0 then none else pksHashLoop α rest (Hash.write sha (r.val.1.getD []))

/-- `secp256k1_musig_compute_pks_hash`, keyagg_impl.h:79-95 -/
def computePksHash (α : Type) [FeOps α] [FeMem α]
    (pks : List (List UInt8)) : Option (List UInt8) :=
  match pksHashLoop α pks (shaMidstate Hash.uninit keyaggListMid) with
  | none => none
  | some sha => some (Hash.finalize sha).1

/-- `secp256k1_musig_keyaggcoef_internal`, keyagg_impl.h:118-143 -/
def keyaggCoefInternal (pksHash : List UInt8) (pk secondPk : Ge α) : Fn :=
  if !secondPk.infinity && geEqVar pk secondPk then 1
  else
    let sha := shaMidstate Hash.uninit keyaggCoefMid
    let sha := Hash.write sha (pksHash.take 32)
    let buf := (eckeyPubkeySerialize pk (zeros 33) 33 true).1
    let sha := Hash.write sha buf
    (scSetB32 (Hash.finalize sha).1).1

/-- `secp256k1_musig_keyaggcoef`, keyagg_impl.h:147-149 -/
def keyaggCoef (c : KeyaggCache α) (pk : Ge α) : Fn := keyaggCoefInternal c.pksHash pk c.secondPk

/-- `secp256k1_musig_pubkey_agg_callback`, keyagg_impl.h:160-173.  The return value of
`secp256k1_pubkey_load` is ignored. -/
def pubkeyAggCallback (pks : List (List UInt8)) (pksHash : List UInt8) (secondPk : Ge α) :
    MultiCallbackOf α := fun idx =>
  let pt := (pubkeyLoad α (pks.getD idx [])).1
  some (keyaggCoefInternal pksHash pt secondPk, pt)

/-- The rest of `secp256k1_musig_pubkey_agg`, keyagg_impl.h:203-230, once the second key is known.
Memory: `agg_pk`, `keyagg_cache`.  The loads in the callback succeed, because the same objects were
loaded for the hash, and so call no illegal callback. -/
def pubkeyAggWith (aggPk cache : Option (List UInt8)) (pks : List (List UInt8)) (secondPk : Ge α) :
    Out (Option (List UInt8) × Option (List UInt8)) :=
  match computePksHash α pks with
  | none => ⟨0, 1, (aggPk, cache)⟩
  | some pksHash =>
    match ecmultMultiVarNull none (pubkeyAggCallback pks pksHash secondPk) pks.length with
    | none => ⟨0, 0, (aggPk, cache)⟩
    | some pkj =>
      let pkp := geSetGej pkj
      let pkp := { pkp with y := FeOps.normalize pkp.y }
      ⟨1, 0,
        (aggPk.map fun _ => pubkeySave (geEvenY pkp).1,
         cache.map fun _ => keyaggCacheSave
           { pk := pkp, secondPk := secondPk, pksHash := pksHash, tweak := 0, parityAcc := 0 })⟩

/-- `secp256k1_musig_pubkey_agg`, keyagg_impl.h:175-231.  Memory: `agg_pk`, `keyagg_cache`. -/
def musigPubkeyAgg (α : Type) [FeOps α] [FeMem α]
    (aggPk cache : Option (List UInt8)) (pubkeys : Option (List (List UInt8))) :
    Out (Option (List UInt8) × Option (List UInt8)) :=
  let aggPk := aggPk.map fun _ => zeros 64
  match pubkeys with
  | none => .argFail (aggPk, cache)
  | some [] => .argFail (aggPk, cache)
  | some (pk0 :: rest) =>
    match findSecond pk0 rest with
    | none => pubkeyAggWith aggPk cache (pk0 :: rest) (geInfinity : Ge α)
    | some pk =>
      let l := pubkeyLoad α pk
      if !l.2 then ⟨0, 1, (aggPk, cache)⟩ else pubkeyAggWith aggPk cache (pk0 :: rest) l.1

/-- `secp256k1_musig_pubkey_get`, keyagg_impl.h:233-245.  Memory: `agg_pk`. -/
def musigPubkeyGet (α : Type) [FeOps α] [FeMem α]
    (aggPk cache : Option (List UInt8)) : Out (Option (List UInt8)) :=
  match aggPk with
  | none => .argFail none
  | some _ =>
    match cache with
    | none => .argFail (some (zeros 64))
    | some cache =>
      match keyaggCacheLoad α cache with
      | none => .argFail (some (zeros 64))
      | some c => ⟨1, 0, some (pubkeySave c.pk)⟩

/-- keyagg_impl.h:266-269: the cache after the optional switch to the even point. -/
def cacheEven (c : KeyaggCache α) (xonly : Bool) : KeyaggCache α :=
  let e := geEvenY c.pk
  if xonly && e.2 ≠ 0 then
    { c with pk := e.1, parityAcc := c.parityAcc ^^^ 1, tweak := -c.tweak }
  else c

/-- `secp256k1_musig_pubkey_tweak_add_internal`, keyagg_impl.h:247-281.  Memory: `output_pubkey`,
`keyagg_cache`. -/
def musigTweakAddInternal (α : Type) [FeOps α] [FeMem α]
    (outputPubkey cache tweak32 : Option (List UInt8)) (xonly : Bool) :
    Out (Option (List UInt8) × Option (List UInt8)) :=
  let out := outputPubkey.map fun _ => zeros 64
  match cache with
  | none => .argFail (out, none)
  | some cache =>
    match tweak32 with
    | none => .argFail (out, some cache)
    | some tweak32 =>
      match keyaggCacheLoad α cache with
      | none => .argFail (out, some cache)
      | some c =>
        let tweak := scSetB32 tweak32
        if tweak.2 then ⟨0, 0, (out, some cache)⟩
        else
          let c := cacheEven c xonly
          let c := { c with tweak := c.tweak + tweak.1 }
          let r := eckeyPubkeyTweakAdd c.pk tweak.1
          if !r.2 then ⟨0, 0, (out, some cache)⟩
          else
            let c := { c with pk := r.1 }
            ⟨1, 0, (out.map fun _ => pubkeySave c.pk, some (keyaggCacheSave c))⟩

/-- `secp256k1_musig_pubkey_ec_tweak_add`, keyagg_impl.h:283-285 -/
def musigEcTweakAdd (α : Type) [FeOps α] [FeMem α]
    (outputPubkey cache tweak32 : Option (List UInt8)) :
    Out (Option (List UInt8) × Option (List UInt8)) :=
  musigTweakAddInternal α outputPubkey cache tweak32 false

/-- `secp256k1_musig_pubkey_xonly_tweak_add`, keyagg_impl.h:287-289 -/
def musigXonlyTweakAdd (α : Type) [FeOps α] [FeMem α]
    (outputPubkey cache tweak32 : Option (List UInt8)) :
    Out (Option (List UInt8) × Option (List UInt8)) :=
  musigTweakAddInternal α outputPubkey cache tweak32 true

/-- `secp256k1_musig_ge_serialize_ext`, session_impl.h:24-38 -/
def musigGeSerializeExt (ge : Ge α) : List UInt8 :=
  if ge.infinity then zeros 33 else (eckeyPubkeySerialize ge (zeros 33) 33 true).1

/-- `secp256k1_musig_ge_parse_ext`, session_impl.h:42-53: `none` is the return value 0. -/
def musigGeParseExt (α : Type) [FeOps α] [FeMem α]
    (in33 : List UInt8) : Option (Ge α) :=
  if memcmpVar in33 (zeros 33) 33 = 0 then some geInfinity
  else
    let q := eckeyPubkeyParse α (in33.take 33)
    if !q.2 then none else if geIsInCorrectSubgroup q.1 then some q.1 else none

/-- `secp256k1_musig_secnonce_save`, session_impl.h:57-62 -/
def secnonceSave (k0 k1 : Fn) (pk : Ge α) : List UInt8 :=
  secnonceMagic ++ scGetB32 k0 ++ scGetB32 k1 ++ geToBytes pk

/-- `secp256k1_musig_secnonce_load`, session_impl.h:64-77; `none` is the return value 0, after one call
of the illegal callback. -/
def secnonceLoad (α : Type) [FeOps α] [FeMem α]
    (secnonce : List UInt8) : Option (Fn × Fn × Ge α) :=
  if memcmpVar secnonce secnonceMagic 4 ≠ 0 then none
  else if isZeroArray ((secnonce.drop 4).take 64) then none
  else some ((scSetB32 (secnonce.drop 4)).1, (scSetB32 (secnonce.drop 36)).1,
    geFromBytes α (secnonce.drop 68))

/-- `secp256k1_musig_pubnonce_save`, session_impl.h:94-100 -/
def pubnonceSave (a b : Ge α) : List UInt8 := pubnonceMagic ++ geToBytes a ++ geToBytes b

/-- `secp256k1_musig_pubnonce_load`, session_impl.h:104-112; `none` as for `secnonceLoad`. -/
def pubnonceLoad (α : Type) [FeOps α] [FeMem α]
    (nonce : List UInt8) : Option (Ge α × Ge α) :=
  if memcmpVar nonce pubnonceMagic 4 ≠ 0 then none
  else some (geFromBytes α (nonce.drop 4), geFromBytes α (nonce.drop 68))

/-- `secp256k1_musig_aggnonce_save`, session_impl.h:116-122 -/
def aggnonceSave (a b : Ge α) : List UInt8 := aggnonceMagic ++ geToBytesExt a ++ geToBytesExt b

/-- `secp256k1_musig_aggnonce_load`, session_impl.h:124-132; `none` as for `secnonceLoad`. -/
def aggnonceLoad (α : Type) [FeOps α] [FeMem α]
    (nonce : List UInt8) : Option (Ge α × Ge α) :=
  if memcmpVar nonce aggnonceMagic 4 ≠ 0 then none
  else some (geFromBytesExt α (nonce.drop 4), geFromBytesExt α (nonce.drop 68))

/-- `secp256k1_musig_pubnonce_parse`, session_impl.h:194-212.  Memory: `nonce`. -/
def musigPubnonceParse (α : Type) [FeOps α] [FeMem α]
    (nonce in66 : Option (List UInt8)) : Out (Option (List UInt8)) :=
  match nonce with
  | none => .argFail none
  | some old =>
    match in66 with
    | none => .argFail (some old)
    | some in66 =>
      let a := eckeyPubkeyParse α (in66.take 33)
      if !a.2 then ⟨0, 0, some old⟩
      else if !geIsInCorrectSubgroup a.1 then ⟨0, 0, some old⟩
      else
        let b := eckeyPubkeyParse α ((in66.drop 33).take 33)
        if !b.2 then ⟨0, 0, some old⟩
        else if !geIsInCorrectSubgroup b.1 then ⟨0, 0, some old⟩
        else ⟨1, 0, some (pubnonceSave a.1 b.1)⟩

/-- `secp256k1_musig_pubnonce_serialize`, session_impl.h:214-238.  Memory: `out66`.  The C code
serializes directly into `out66`. -/
def musigPubnonceSerialize (α : Type) [FeOps α] [FeMem α]
    (out66 nonce : Option (List UInt8)) : Out (Option (List UInt8)) :=
  match out66 with
  | none => .argFail none
  | some out =>
    let out := put out 0 (zeros 66)
    match nonce with
    | none => .argFail (some out)
    | some nonce =>
      match pubnonceLoad α nonce with
      | none => .argFail (some out)
      | some (a, b) =>
        let out := put out 0 (eckeyPubkeySerialize a (zeros 33) 33 true).1
        let out := put out 33 (eckeyPubkeySerialize b (zeros 33) 33 true).1
        ⟨1, 0, some out⟩

/-- `secp256k1_musig_aggnonce_parse`, session_impl.h:240-255.  Memory: `nonce`. -/
def musigAggnonceParse (α : Type) [FeOps α] [FeMem α]
    (nonce in66 : Option (List UInt8)) : Out (Option (List UInt8)) :=
  match nonce with
  | none => .argFail none
  | some old =>
    match in66 with
    | none => .argFail (some old)
    | some in66 =>
      match musigGeParseExt α in66 with
      | none => ⟨0, 0, some old⟩
      | some a =>
        match musigGeParseExt α (in66.drop 33) with
        | none => ⟨0, 0, some old⟩
        | some b => ⟨1, 0, some (aggnonceSave a b)⟩

/-- `secp256k1_musig_aggnonce_serialize`, session_impl.h:257-273.  Memory: `out66`. -/
def musigAggnonceSerialize (α : Type) [FeOps α] [FeMem α]
    (out66 nonce : Option (List UInt8)) : Out (Option (List UInt8)) :=
  match out66 with
  | none => .argFail none
  | some out =>
    let out := put out 0 (zeros 66)
    match nonce with
    | none => .argFail (some out)
    | some nonce =>
      match aggnonceLoad α nonce with
      | none => .argFail (some out)
      | some (a, b) =>
        let out := put out 0 (musigGeSerializeExt a)
        let out := put out 33 (musigGeSerializeExt b)
        ⟨1, 0, some out⟩

/-- session_impl.h:442-466, once all inputs are loaded: `secnonce` and `pubnonce`. -/
def musigNonceGenCore (gen : GenCtxOf α) (inputNonce : List UInt8) (seckey msg32 : Option (List UInt8))
    (pk : Ge α) (aggPk32 extraInput32 : Option (List UInt8)) (ret : Bool) :
    List UInt8 × List UInt8 :=
  let pkSer := (eckeyPubkeySerialize pk (zeros 33) 33 true).1
  let k := nonceFunctionMusig inputNonce msg32 seckey pkSer aggPk32 extraInput32
  let secnonce := secnonceInvalidate (secnonceSave k.1 k.2 pk) (!ret)
  let pts := geSetAllGej [ecmultGen gen k.1, ecmultGen gen k.2]
  (secnonce, pubnonceSave (pts.getD 0 geGarbage) (pts.getD 1 geGarbage))

/-- `aggpk_ser_ptr`, session_impl.h:420-428: `none` if the cache is not valid, `some none` if it is NULL. -/
def nonceGenAggPk (α : Type) [FeOps α] [FeMem α]
    : Option (List UInt8) → Option (Option (List UInt8))
  | none => some none
  | some cache => (keyaggCacheLoad α cache).map fun c => some (feGetB32 c.pk.x)

/-- `secp256k1_musig_nonce_gen_internal`, session_impl.h:395-467.  Memory: `secnonce`, `pubnonce`.
`secnonce` is not NULL. -/
def musigNonceGenInternal (ctx : Ctx α) (secnonce : List UInt8) (pubnonce : Option (List UInt8))
    (inputNonce : List UInt8) (seckey pubkey msg32 cache extraInput32 : Option (List UInt8)) :
    Out (List UInt8 × Option (List UInt8)) :=
  match pubnonce with
  | none => .argFail (secnonce, none)
  | some _ =>
    match pubkey with
    | none => .argFail (secnonce, some (zeros 132))
    | some pubkey =>
      if !ecmultGenIsBuilt ctx.gen then .argFail (secnonce, some (zeros 132))
      else
        let ret := nonceGenSeckeyOk seckey
        match nonceGenAggPk α cache with
        | none => .argFail (secnonce, some (zeros 132))
        | some aggPk32 =>
          let pk := pubkeyLoad α pubkey
          if !pk.2 then ⟨0, 1, (secnonce, some (zeros 132))⟩
          else
            let r := musigNonceGenCore ctx.gen inputNonce seckey msg32 pk.1 aggPk32 extraInput32 ret
            ⟨cInt ret, 0, (r.1, some r.2)⟩

/-- `secp256k1_musig_nonce_gen`, session_impl.h:469-495.  Memory: `secnonce`, `pubnonce`,
`session_secrand32`. -/
def musigNonceGen (ctx : Ctx α) (secnonce pubnonce sessionSecrand32
    seckey pubkey msg32 cache extraInput32 : Option (List UInt8)) :
    Out (Option (List UInt8) × Option (List UInt8) × Option (List UInt8)) :=
  match secnonce with
  | none => .argFail (none, pubnonce, sessionSecrand32)
  | some _ =>
    match sessionSecrand32 with
    | none => .argFail (some (zeros 132), pubnonce, none)
    | some rand =>
      if isZeroArray (rand.take 32) then
        ⟨0, 0, (some (secnonceInvalidate (zeros 132) true), pubnonce, some rand)⟩
      else
        let r := musigNonceGenInternal ctx (zeros 132) pubnonce rand seckey pubkey msg32 cache
          extraInput32
        ⟨r.ret, r.illegal,
          (some r.val.1, r.val.2,
            some (put rand 0 (memczero (rand.take 32) (decide (r.ret ≠ 0)))))⟩

/-- `secp256k1_musig_nonce_gen_counter`, session_impl.h:497-523.  Memory: `secnonce`, `pubnonce`. -/
def musigNonceGenCounter (ctx : Ctx α) (secnonce pubnonce : Option (List UInt8)) (cnt : UInt64)
    (keypair msg32 cache extraInput32 : Option (List UInt8)) :
    Out (Option (List UInt8) × Option (List UInt8)) :=
  match secnonce with
  | none => .argFail (none, pubnonce)
  | some _ =>
    match keypair with
    | none => .argFail (some (zeros 132), pubnonce)
    | some keypair =>
      let buf := Spec.beBytes 8 cnt.toNat ++ zeros 24
      let seckey := keypairSec (some (zeros 32)) (some keypair)
      let pubkey := keypairPub (some (zeros 64)) (some keypair)
      let r := musigNonceGenInternal ctx (zeros 132) pubnonce buf seckey.val pubkey.val msg32 cache
        extraInput32
      ⟨if r.ret = 0 then 0 else 1, r.illegal, (some r.val.1, r.val.2)⟩

/-- The loop of `secp256k1_musig_sum_pubnonces`, session_impl.h:532-540. -/
def sumPubnoncesLoop (α : Type) [FeOps α] [FeMem α]
    : List (List UInt8) → Gej α → Gej α → Option (Gej α × Gej α)
  | [], s0, s1 => some (s0, s1)
  | nonce :: rest, s0, s1 =>
    match pubnonceLoad α nonce with
    | none => none
    | some (a, b) => sumPubnoncesLoop α rest (gejAddGeVar s0 a).1 (gejAddGeVar s1 b).1

/-- `secp256k1_musig_sum_pubnonces`, session_impl.h:525-542; `none` as for `secnonceLoad`. -/
def sumPubnonces (α : Type) [FeOps α] [FeMem α]
    (pubnonces : List (List UInt8)) : Option (Gej α × Gej α) :=
  sumPubnoncesLoop α pubnonces gejInfinity gejInfinity

/-- `secp256k1_musig_nonce_agg`, session_impl.h:544-558.  Memory: `aggnonce`. -/
def musigNonceAgg (α : Type) [FeOps α] [FeMem α]
    (aggnonce : Option (List UInt8)) (pubnonces : Option (List (List UInt8))) :
    Out (Option (List UInt8)) :=
  match aggnonce with
  | none => .argFail none
  | some old =>
    match pubnonces with
    | none => .argFail (some old)
    | some pubnonces =>
      if ¬ pubnonces.length > 0 then .argFail (some old)
      else
        match sumPubnonces α pubnonces with
        | none => .argFail (some old)
        | some (s0, s1) =>
          let pts := geSetAllGejVar [s0, s1]
          ⟨1, 0, some (aggnonceSave (pts.getD 0 geGarbage) (pts.getD 1 geGarbage))⟩

/-- `secp256k1_musig_compute_noncehash`, session_impl.h:576-589 -/
def computeNoncehash (a b : Ge α) (aggPk32 msg : List UInt8) : List UInt8 :=
  let sha := shaMidstate Hash.uninit musigNoncecoefMid
  let sha := Hash.write sha (musigGeSerializeExt a)
  let sha := Hash.write sha (musigGeSerializeExt b)
  let sha := Hash.write sha (aggPk32.take 32)
  let sha := Hash.write sha (msg.take 32)
  (Hash.finalize sha).1

/-- `secp256k1_effective_nonce`, session_impl.h:592-598 -/
def effectiveNonce (n0 n1 : Ge α) (b : Fn) : Gej α :=
  let out := ecmult (gejSetGe n1) b none
  (gejAddGeVar out n0).1

/-- `secp256k1_musig_nonce_process_internal`, session_impl.h:600-618: `*fin_nonce_parity`, `fin_nonce`,
`*b`. -/
def nonceProcessInternal (n0 n1 : Ge α) (aggPk32 msg : List UInt8) : Nat × List UInt8 × Fn :=
  let b := (scSetB32 (computeNoncehash n0 n1 aggPk32 msg)).1
  let pt := geSetGej (effectiveNonce n0 n1 b)
  let pt := if pt.infinity then geConstG else pt
  (if feIsOdd (FeOps.normalize pt.y) then 1 else 0, feGetB32 (FeOps.normalize pt.x), b)

/-- The session made from the loaded values, session_impl.h:636-655. -/
def musigSession (c : KeyaggCache α) (n0 n1 : Ge α) (msg32 : List UInt8) : Session :=
  let aggPk32 := feGetB32 c.pk.x
  let np := nonceProcessInternal n0 n1 aggPk32 msg32
  let e := schnorrsigChallenge np.2.1 (msg32.take 32) aggPk32
  let sPart : Fn :=
    if !scIsZero c.tweak then
      let t := e * c.tweak
      if feIsOdd c.pk.y then -t else t
    else 0
  { finNonceParity := np.1, finNonce := np.2.1, noncecoef := np.2.2, challenge := e, sPart := sPart }

/-- `secp256k1_musig_nonce_process`, session_impl.h:620-658.  Memory: `session`. -/
def musigNonceProcess (α : Type) [FeOps α] [FeMem α]
    (session aggnonce msg32 cache : Option (List UInt8)) :
    Out (Option (List UInt8)) :=
  match session with
  | none => .argFail none
  | some old =>
    match aggnonce with
    | none => .argFail (some old)
    | some aggnonce =>
      match msg32 with
      | none => .argFail (some old)
      | some msg32 =>
        match cache with
        | none => .argFail (some old)
        | some cache =>
          match keyaggCacheLoad α cache with
          | none => .argFail (some old)
          | some c =>
            match aggnonceLoad α aggnonce with
            | none => .argFail (some old)
            | some (n0, n1) => ⟨1, 0, some (sessionSave (musigSession c n0 n1 msg32))⟩

/-- The arithmetic of `secp256k1_musig_partial_sign`, session_impl.h:704-730. -/
def partialSignValue (sk k0 k1 : Fn) (pk : Ge α) (c : KeyaggCache α) (s : Session) : Fn :=
  let sk := if (if feIsOdd c.pk.y then 1 else 0) ≠ c.parityAcc then -sk else sk
  let mu := keyaggCoef c pk
  let sk := sk * mu
  let k0 := if s.finNonceParity ≠ 0 then -k0 else k0
  let k1 := if s.finNonceParity ≠ 0 then -k1 else k1
  let sv := s.challenge * sk
  let k1 := s.noncecoef * k1
  let k0 := k0 + k1
  sv + k0

/-- session_impl.h:688-734, after the secret nonce has been loaded and zeroed: the outcome for
`partial_sig`. -/
def partialSignWith (partialSig keypair cache session : Option (List UInt8)) (k0 k1 : Fn)
    (pk : Ge α) : Out (Option (List UInt8)) :=
  match partialSig with
  | none => .argFail none
  | some old =>
    match keypair with
    | none => .argFail (some old)
    | some keypair =>
      match cache with
      | none => .argFail (some old)
      | some cache =>
        match session with
        | none => .argFail (some old)
        | some session =>
          let l := keypairLoad α keypair
          if !l.2.2 then .argFail (some old)
          else if !(FeOps.equal pk.x l.2.1.x && FeOps.equal pk.y l.2.1.y) then .argFail (some old)
          else
            match keyaggCacheLoad α cache with
            | none => .argFail (some old)
            | some c =>
              match sessionLoad session with
              | none => .argFail (some old)
              | some s => ⟨1, 0, some (partialSigSave (partialSignValue l.1 k0 k1 pk c s))⟩

/-- `secp256k1_musig_partial_sign`, session_impl.h:666-734.  Memory: `partial_sig`, `secnonce`. -/
def musigPartialSign (α : Type) [FeOps α] [FeMem α]
    (partialSig secnonce keypair cache session : Option (List UInt8)) :
    Out (Option (List UInt8) × Option (List UInt8)) :=
  match secnonce with
  | none => .argFail (partialSig, none)
  | some secnonce =>
    match secnonceLoad α secnonce with
    | none => ⟨0, 1, (partialSig, some (zeros 132))⟩
    | some (k0, k1, pk) =>
      let r := partialSignWith partialSig keypair cache session k0 k1 pk
      ⟨r.ret, r.illegal, (r.val, some (zeros 132))⟩

/-- The arithmetic of `secp256k1_musig_partial_sig_verify`, session_impl.h:760-796. -/
def partialSigCheck (s : Fn) (n0 n1 pkp : Ge α) (c : KeyaggCache α) (sess : Session) : Bool :=
  let rj := effectiveNonce n0 n1 sess.noncecoef
  let mu := keyaggCoef c pkp
  let e := sess.challenge * mu
  let e := if (if feIsOdd c.pk.y then 1 else 0) ≠ c.parityAcc then -e else e
  let s := -s
  let tmp := ecmult (gejSetGe pkp) e (some s)
  let rj := if sess.finNonceParity ≠ 0 then gejNeg rj else rj
  let tmp := (gejAddVar tmp rj).1
  tmp.infinity

/-- `secp256k1_musig_partial_sig_verify`, session_impl.h:736-797 -/
def musigPartialSigVerify (α : Type) [FeOps α] [FeMem α]
    (partialSig pubnonce pubkey cache session : Option (List UInt8)) :
    Out Unit :=
  match partialSig with
  | none => .argFail ()
  | some partialSig =>
    match pubnonce with
    | none => .argFail ()
    | some pubnonce =>
      match pubkey with
      | none => .argFail ()
      | some pubkey =>
        match cache with
        | none => .argFail ()
        | some cache =>
          match session with
          | none => .argFail ()
          | some session =>
            match sessionLoad session with
            | none => .argFail ()
            | some sess =>
              match pubnonceLoad α pubnonce with
              | none => .argFail ()
              | some (n0, n1) =>
                let pkp := pubkeyLoad α pubkey
                if !pkp.2 then .argFail ()
                else
                  match keyaggCacheLoad α cache with
                  | none => .argFail ()
                  | some c =>
                    match partialSigLoad partialSig with
                    | none => .argFail ()
                    | some s => ⟨cInt (partialSigCheck s n0 n1 pkp.1 c sess), 0, ()⟩

end Secp.Model.Limb
