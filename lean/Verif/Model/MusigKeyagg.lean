import Verif.Model.Schnorr
import Verif.Model.MultiSimple

/-!
# Model of `/repo/src/modules/musig/keyagg_impl.h`

An array of pointers to objects with its length is the list of the objects: the entries are not NULL
(the code reads through them without a check).
-/

namespace Secp.Model

open FeOps

/-- `secp256k1_musig_keyagg_cache_magic`, keyagg_impl.h:19 -/
def cacheMagic : List UInt8 := [0xf4, 0xad, 0xbb, 0xdf]

/-- `secp256k1_keyagg_cache_internal`, keyagg.h:15-26 -/
structure KeyaggCache where
  pk : Ge Fp
  secondPk : Ge Fp
  pksHash : List UInt8
  tweak : Fn
  parityAcc : Nat

/-- `secp256k1_keyagg_cache_save`, keyagg_impl.h:31-44 -/
def keyaggCacheSave (c : KeyaggCache) : List UInt8 :=
  cacheMagic ++ geToBytes c.pk ++ geToBytesExt c.secondPk ++ c.pksHash ++
    [UInt8.ofNat c.parityAcc] ++ scGetB32 c.tweak

/-- `secp256k1_keyagg_cache_load`, keyagg_impl.h:46-60; `none` is the return value 0, after one call of
the illegal callback. -/
def keyaggCacheLoad (cache : List UInt8) : Option KeyaggCache :=
  if memcmpVar cache cacheMagic 4 ≠ 0 then none
  else some
    { pk := geFromBytes (cache.drop 4)
      secondPk := geFromBytesExt (cache.drop 68)
      pksHash := (cache.drop 132).take 32
      parityAcc := (cache.getD 164 0 &&& 1).toNat
      tweak := (scSetB32 (cache.drop 165)).1 }

/-- `secp256k1_musig_keyagglist_sha256`, keyagg_impl.h:64-76 -/
def keyaggListMid : List UInt32 :=
  [0xb399d5e0, 0xc8fff302, 0x6badac71, 0x07c5b7f1, 0x9701e2ef, 0x2a72ecf8, 0x201a4c7b, 0xab148a38]

/-- The loop of `secp256k1_musig_compute_pks_hash`, keyagg_impl.h:84-92; `none` is the return value 0,
after one call of the illegal callback. -/
def pksHashLoop : List (List UInt8) → Hash.Sha → Option Hash.Sha
  | [], sha => some sha
  | pk :: rest, sha =>
    let r := ecPubkeySerialize (some (zeros 33)) (some 33) (some pk) ecCompressed
    if r.ret = 0 then none else pksHashLoop rest (Hash.write sha (r.val.1.getD []))

/-- `secp256k1_musig_compute_pks_hash`, keyagg_impl.h:79-95 -/
def computePksHash (pks : List (List UInt8)) : Option (List UInt8) :=
  match pksHashLoop pks (shaMidstate Hash.uninit keyaggListMid) with
  | none => none
  | some sha => some (Hash.finalize sha).1

/-- `secp256k1_musig_keyaggcoef_sha256`, keyagg_impl.h:99-111 -/
def keyaggCoefMid : List UInt32 :=
  [0x6ef02c5a, 0x06a480de, 0x1f298665, 0x1d1134f2, 0x56a0b063, 0x52da4147, 0xf280d9d4, 0x4484be15]

/-- `secp256k1_musig_keyaggcoef_internal`, keyagg_impl.h:118-143 -/
def keyaggCoefInternal (pksHash : List UInt8) (pk secondPk : Ge Fp) : Fn :=
  if !secondPk.infinity && geEqVar pk secondPk then 1
  else
    let sha := shaMidstate Hash.uninit keyaggCoefMid
    let sha := Hash.write sha (pksHash.take 32)
    let buf := (eckeyPubkeySerialize pk (zeros 33) 33 true).1
    let sha := Hash.write sha buf
    (scSetB32 (Hash.finalize sha).1).1

/-- `secp256k1_musig_keyaggcoef`, keyagg_impl.h:147-149 -/
def keyaggCoef (c : KeyaggCache) (pk : Ge Fp) : Fn := keyaggCoefInternal c.pksHash pk c.secondPk

/-- `secp256k1_musig_pubkey_agg_callback`, keyagg_impl.h:160-173.  The return value of
`secp256k1_pubkey_load` is ignored. -/
def pubkeyAggCallback (pks : List (List UInt8)) (pksHash : List UInt8) (secondPk : Ge Fp) :
    MultiCallback := fun idx =>
  let pt := (pubkeyLoad (pks.getD idx [])).1
  some (keyaggCoefInternal pksHash pt secondPk, pt)

/-- The search for the second key, keyagg_impl.h:191-201: the first object that differs. -/
def findSecond (pk0 : List UInt8) (rest : List (List UInt8)) : Option (List UInt8) :=
  rest.find? fun pk => memcmpVar pk0 pk 64 ≠ 0

/-- The rest of `secp256k1_musig_pubkey_agg`, keyagg_impl.h:203-230, once the second key is known.
Memory: `agg_pk`, `keyagg_cache`.  The loads in the callback succeed, because the same objects were
loaded for the hash, and so call no illegal callback. -/
def pubkeyAggWith (aggPk cache : Option (List UInt8)) (pks : List (List UInt8)) (secondPk : Ge Fp) :
    Out (Option (List UInt8) × Option (List UInt8)) :=
  match computePksHash pks with
  | none => ⟨0, 1, (aggPk, cache)⟩
  | some pksHash =>
    match ecmultMultiVarNull none (pubkeyAggCallback pks pksHash secondPk) pks.length with
    | none => ⟨0, 0, (aggPk, cache)⟩
    | some pkj =>
      let pkp := geSetGej pkj
      let pkp := { pkp with y := FeOps.normalize pkp.y }
      ⟨1, 0,
        (aggPk.map fun _ => pubkeySave (geEvenY pkp).1,
         cache.map fun _ => keyaggCacheSave
           { pk := pkp, secondPk := secondPk, pksHash := pksHash, tweak := 0, parityAcc := 0 })⟩

/-- `secp256k1_musig_pubkey_agg`, keyagg_impl.h:175-231.  Memory: `agg_pk`, `keyagg_cache`. -/
def musigPubkeyAgg (aggPk cache : Option (List UInt8)) (pubkeys : Option (List (List UInt8))) :
    Out (Option (List UInt8) × Option (List UInt8)) :=
  let aggPk := aggPk.map fun _ => zeros 64
  match pubkeys with
  | none => .argFail (aggPk, cache)
  | some [] => .argFail (aggPk, cache)
  | some (pk0 :: rest) =>
    match findSecond pk0 rest with
    | none => pubkeyAggWith aggPk cache (pk0 :: rest) geInfinity
    | some pk =>
      let l := pubkeyLoad pk
      if !l.2 then ⟨0, 1, (aggPk, cache)⟩ else pubkeyAggWith aggPk cache (pk0 :: rest) l.1

/-- `secp256k1_musig_pubkey_get`, keyagg_impl.h:233-245.  Memory: `agg_pk`. -/
def musigPubkeyGet (aggPk cache : Option (List UInt8)) : Out (Option (List UInt8)) :=
  match aggPk with
  | none => .argFail none
  | some _ =>
    match cache with
    | none => .argFail (some (zeros 64))
    | some cache =>
      match keyaggCacheLoad cache with
      | none => .argFail (some (zeros 64))
      | some c => ⟨1, 0, some (pubkeySave c.pk)⟩

/-- keyagg_impl.h:266-269: the cache after the optional switch to the even point. -/
def cacheEven (c : KeyaggCache) (xonly : Bool) : KeyaggCache :=
  let e := geEvenY c.pk
  if xonly && e.2 ≠ 0 then
    { c with pk := e.1, parityAcc := c.parityAcc ^^^ 1, tweak := -c.tweak }
  else c

/-- `secp256k1_musig_pubkey_tweak_add_internal`, keyagg_impl.h:247-281.  Memory: `output_pubkey`,
`keyagg_cache`. -/
def musigTweakAddInternal (outputPubkey cache tweak32 : Option (List UInt8)) (xonly : Bool) :
    Out (Option (List UInt8) × Option (List UInt8)) :=
  let out := outputPubkey.map fun _ => zeros 64
  match cache with
  | none => .argFail (out, none)
  | some cache =>
    match tweak32 with
    | none => .argFail (out, some cache)
    | some tweak32 =>
      match keyaggCacheLoad cache with
      | none => .argFail (out, some cache)
      | some c =>
        let tweak := scSetB32 tweak32
        if tweak.2 then ⟨0, 0, (out, some cache)⟩
        else
          let c := cacheEven c xonly
          let c := { c with tweak := c.tweak + tweak.1 }
          let r := eckeyPubkeyTweakAdd c.pk tweak.1
          if !r.2 then ⟨0, 0, (out, some cache)⟩
          else
            let c := { c with pk := r.1 }
            ⟨1, 0, (out.map fun _ => pubkeySave c.pk, some (keyaggCacheSave c))⟩

/-- `secp256k1_musig_pubkey_ec_tweak_add`, keyagg_impl.h:283-285 -/
def musigEcTweakAdd (outputPubkey cache tweak32 : Option (List UInt8)) :
    Out (Option (List UInt8) × Option (List UInt8)) :=
  musigTweakAddInternal outputPubkey cache tweak32 false

/-- `secp256k1_musig_pubkey_xonly_tweak_add`, keyagg_impl.h:287-289 -/
def musigXonlyTweakAdd (outputPubkey cache tweak32 : Option (List UInt8)) :
    Out (Option (List UInt8) × Option (List UInt8)) :=
  musigTweakAddInternal outputPubkey cache tweak32 true

end Secp.Model
