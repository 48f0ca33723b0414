import Verif.Model.Ellswift
import Verif.Model.ApiEcdsa
import Verif.Model.MusigSession

/-!
# The `VERIFY_CHECK`s of the hash code, of the modules and of recovery

The functions of `Model/Hash`, `Model/Ellswift`, `Model/ApiEcdsa`, `Model/Extrakeys` and `Model/MusigKeyagg`,
`Model/MusigSession` once more, with the checks that a build with `VERIFY` makes.  `none` is a failed check:
the program aborts.  The checks that the field and point functions make inside are those of `Model/Verify` and
`Model/VerifyEcmult`; `VERIFY_CHECK(ctx != NULL)` is left out (the context is a value).
-/

namespace Secp.Hash

/-- `secp256k1_sha256_write`, hash_impl.h:126-143, with the check of line 129: the counter, increased before
the loop and not changed by it, is at least `len`. -/
def writeV (h : Sha) (data : List UInt8) : Option Sha :=
  let h := write h data
  if h.bytes.toNat ≥ data.length then some h else none

/-- `secp256k1_sha256_finalize`, hash_impl.h:145-159, with the check of line 150. -/
def finalizeV (h : Sha) : Option (List UInt8 × Sha) := do
  if h.bytes.toNat < 2 ^ 61 then
    let pad : List UInt8 := 0x80 :: List.replicate 63 0
    let sizedesc := writeBe32 (h.bytes >>> 29).toUInt32 ++ writeBe32 (h.bytes <<< 3).toUInt32
    let h' ← writeV h (pad.take (1 + ((119 - h.bytes.toNat % 64) % 64)))
    let h' ← writeV h' sizedesc
    some (h'.s.flatMap writeBe32, { h' with s := List.replicate 8 0 })
  else none

/-- A sequence of calls of `secp256k1_sha256_write`. -/
def writesV (h : Sha) : List (List UInt8) → Option Sha
  | [] => some h
  | d :: ds => do
    let h ← writeV h d
    writesV h ds

end Secp.Hash

namespace Secp.Model

open FeOps

/-! ### ElligatorSwift -/

/-- `secp256k1_ellswift_xswiftec_frac_var`, ellswift/main_impl.h:24-132, with the check of line 130. -/
def xswiftecFracVarV (u t : Fp) : Option (Fp × Fp) :=
  let u1 := if normalizesToZero u then setInt 1 else u
  let s := sqr t
  let s := if normalizesToZero t then setInt 1 else s
  let l := sqr u1
  let g := mul l u1
  let g := addInt g curveB
  let p := add g s
  let s := if normalizesToZero p then mulInt s 4 else s
  let p := add g s
  let d := mul s l
  let d := mulInt d 3
  let l := sqr p
  let l := negate l 1
  let n := mul d u1
  let n := add n l
  if geXFracOnCurveVar n d then some (n, d)
  else
    let l := mul ellC1 s
    let n := mul ellC2 g
    let n := add n l
    let n := mul n u1
    if geXFracOnCurveVar n p then some (n, p)
    else
      let l := mul p u1
      let n := add n l
      let xn := negate n 2
      if geXFracOnCurveVar xn p then some (xn, p) else none

/-- `secp256k1_ellswift_xswiftec_inv_var`, ellswift/main_impl.h:168-303, with the checks of lines 195, 196,
230, 271 and 291; the inner `none` is the return value 0. -/
def xswiftecInvVarV (x u : Fp) (c : ℕ) : Option (Option Fp) :=
  let x := normalizeWeak x
  let u := normalizeWeak u
  if ¬ c < 8 then none
  else if !geXOnCurveVar x then none
  else if c &&& 2 = 0 then
    let m := add x u
    let m := negate m 2
    if geXOnCurveVar m then some none
    else
      let s := sqr m
      let s := negate s 1
      let m := mul u x
      let s := add s m
      if normalizesToZero s then none
      else
        let g := sqr u
        let g := mul g u
        let g := addInt g curveB
        let m := mul s g
        if !feIsSquareVar m then some none
        else
          let s := invVar s
          let s := mul s g
          if !(FeOps.sqrt s).2 then none else some (some (xswiftecInvEnd u s x c))
  else
    let m := negate u 1
    let s := add m x
    if !feIsSquareVar s then some none
    else
      let g := sqr u
      let q := mul s g
      let q := mulInt q 3
      let g := mul g u
      let g := mulInt g 4
      let g := addInt g (4 * curveB)
      let q := add q g
      let q := mul q s
      let q := negate q 1
      if !feIsSquareVar q then some none
      else if !(FeOps.sqrt q).2 then none
      else
        let r := (FeOps.sqrt q).1
        if c &&& 1 = 1 ∧ normalizesToZero r then some none
        else if normalizesToZero s then some none
        else
          let v := invVar s
          let v := mul v r
          let v := add v m
          let v := half v
          if !(FeOps.sqrt s).2 then none else some (some (xswiftecInvEnd u s v c))

/-- `secp256k1_ellswift_prng`, ellswift/main_impl.h:310-325, with the check of line 324. -/
def ellswiftPrngV (hasher : Hash.Sha) (cnt : UInt32) : Option (List UInt8) := do
  let blocks := hasher.bytes >>> 6
  let hash ← Hash.writeV hasher (prngBuf4 cnt)
  let r ← Hash.finalizeV hash
  if r.2.bytes >>> 6 = blocks + 1 then some r.1 else none

/-- The pool of branch values, ellswift/main_impl.h:347-351. -/
def ellPoolV (hasher : Hash.Sha) (branchHash : List UInt8) (left : ℕ) (cnt : UInt32) :
    Option (List UInt8 × ℕ × UInt32) :=
  if left = 0 then (ellswiftPrngV hasher cnt).map fun b => (b, 64, cnt + 1)
  else some (branchHash, left, cnt)

/-- The loop of `secp256k1_ellswift_xelligatorswift_var`, ellswift/main_impl.h:344-366, with the check of line
362; `some none`: the first `fuel` iterations found nothing. -/
def xelligatorswiftLoopV (x : Fp) (hasher : Hash.Sha) :
    (fuel : ℕ) → List UInt8 → ℕ → UInt32 → Option (Option (List UInt8 × Fp))
  | 0, _, _, _ => some none
  | fuel + 1, branchHash, left, cnt => do
    let pool ← ellPoolV hasher branchHash left cnt
    let left := pool.2.1 - 1
    let branch := ellBranch pool.1 left
    let u32 ← ellswiftPrngV hasher pool.2.2
    let u := feSetB32Mod u32
    if normalizesToZero u then none
    else
      match ← xswiftecInvVarV x u branch with
      | some t => some (some (u32, t))
      | none => xelligatorswiftLoopV x hasher fuel pool.1 left (pool.2.2 + 1)

/-- `secp256k1_ellswift_elligatorswift_var`, ellswift/main_impl.h:375-382, and
`secp256k1_ellswift_xelligatorswift_var`, 333-367 -/
def elligatorswiftVarV (fuel : ℕ) (p : Ge Fp) (hasher : Hash.Sha) : Option (Option (List UInt8 × Fp)) := do
  match ← xelligatorswiftLoopV p.x hasher fuel [] 0 0 with
  | none => some none
  | some r =>
    let t := FeOps.normalize r.2
    let t := if feIsOdd t != feIsOdd p.y then FeOps.normalize (negate t 1) else t
    some (some (r.1, t))

/-- `secp256k1_ellswift_encode`, ellswift/main_impl.h:399-433, with the check of line 418.  The inner `none`:
the search takes more than `fuel` iterations. -/
def ellswiftEncodeV (fuel : ℕ) (ell64 pubkey rnd32 : Option (List UInt8)) :
    Option (Option (Out (Option (List UInt8)))) :=
  match ell64 with
  | none => some (some (.argFail none))
  | some ell =>
    match pubkey with
    | none => some (some (.argFail (some ell)))
    | some pubkey =>
      match rnd32 with
      | none => some (some (.argFail (some ell)))
      | some rnd => do
        let p := pubkeyLoad pubkey
        if p.2 then
          let hash := shaMidstate Hash.uninit ellswiftEncodeMid
          let ser := eckeyPubkeySerialize p.1 (zeros 64) 0 true
          if ser.2.2 && ser.2.1 == 33 then
            let hash ← Hash.writeV hash (ser.1.take 64)
            let hash ← Hash.writeV hash (rnd.take 32)
            match ← elligatorswiftVarV fuel p.1 hash with
            | none => some none
            | some r => some (some ⟨1, 0, some (ellswiftPut ell r)⟩)
          else none
        else some (some ⟨0, 1, some (put ell 0 (zeros 64))⟩)

/-- The hash object of `secp256k1_ellswift_create`, ellswift/main_impl.h:471-477 -/
def ellswiftCreateHasherV (seckey : List UInt8) (auxrnd : Option (List UInt8)) : Option Hash.Sha := do
  let hash := shaMidstate Hash.uninit ellswiftCreateMid
  let hash ← Hash.writeV hash (seckey.take 32)
  let hash ← Hash.writeV hash (zeros 32)
  match auxrnd with
  | some aux => Hash.writeV hash (aux.take 32)
  | none => some hash

/-- `secp256k1_ellswift_create`, ellswift/main_impl.h:450-487 -/
def ellswiftCreateV (ctx : Ctx) (fuel : ℕ) (ell64 seckey32 auxrnd32 : Option (List UInt8)) :
    Option (Option (Out (Option (List UInt8)))) :=
  match ell64 with
  | none => some (some (.argFail none))
  | some ell =>
    let ell := put ell 0 (zeros 64)
    if !ecmultGenIsBuilt ctx.gen then some (some (.argFail (some ell)))
    else
      match seckey32 with
      | none => some (some (.argFail (some ell)))
      | some seckey => do
        let h := ecPubkeyCreateHelper ctx.gen seckey
        let p : Ge Fp :=
          { h.2.1 with x := FeOps.normalize h.2.1.x, y := FeOps.normalize h.2.1.y }
        let hash ← ellswiftCreateHasherV seckey auxrnd32
        match ← elligatorswiftVarV fuel p hash with
        | none => some none
        | some r => some (some ⟨cInt h.2.2, 0, some (memczero (ellswiftPut ell r) (!h.2.2))⟩)

/-- `secp256k1_ellswift_decode`, ellswift/main_impl.h:489-502, with `secp256k1_ellswift_xswiftec_var` and
`secp256k1_ellswift_swiftec_var`, 135-147 -/
def ellswiftDecodeV (pubkey ell64 : Option (List UInt8)) : Option (Out (Option (List UInt8))) :=
  match pubkey with
  | none => some (.argFail none)
  | some pubkey =>
    match ell64 with
    | none => some (.argFail (some pubkey))
    | some ell => do
      let u := feSetB32Mod ell
      let t := feSetB32Mod (ell.drop 32)
      let t := FeOps.normalize t
      let f ← xswiftecFracVarV u t
      let p := (geSetXoVar (mul f.1 (invVar f.2)) (feIsOdd t)).1
      some ⟨1, 0, some (pubkeySave p)⟩

/-! ### Recovery -/

/-- `secp256k1_ecdsa_sig_recover`, recovery/main_impl.h:87-121, with the check of line 103; the inner `none` is
the return value 0. -/
def ecdsaSigRecoverV (sigr sigs message : Fn) (recid : Nat) : Option (Option (Ge Fp)) :=
  if scIsZero sigr || scIsZero sigs then some none
  else if !(feSetB32Limit (scGetB32 sigr)).2 then none
  else
    match recoverX sigr recid with
    | none => some none
    | some fx =>
      let x := geSetXoVar fx (recid &&& 1 ≠ 0)
      if !x.2 then some none
      else
        let rn := sigr⁻¹
        let u1 := rn * message
        let u1 := -u1
        let u2 := rn * sigs
        let qj := ecmult (gejSetGe x.1) u2 (some u1)
        if !qj.infinity then some (some (geSetGej qj)) else some none

/-- `secp256k1_ecdsa_recover`, recovery/main_impl.h:137-157, with the check of line 148. -/
def ecdsaRecoverV (pubkey signature msghash32 : Option (List UInt8)) : Option (Out (Option (List UInt8))) :=
  match msghash32 with
  | none => some (.argFail pubkey)
  | some msghash32 =>
    match signature with
    | none => some (.argFail pubkey)
    | some signature =>
      match pubkey with
      | none => some (.argFail none)
      | some _ =>
        let l := recoverableLoad signature
        if ¬ l.2.2 < 4 then none
        else
          let m := scSetB32 msghash32
          match ecdsaSigRecoverV l.1 l.2.1 m.1 l.2.2 with
          | none => none
          | some (some q) => some ⟨1, 0, some (pubkeySave q)⟩
          | some none => some ⟨0, 0, some (zeros 64)⟩

/-! ### Keys with an even Y coordinate -/

/-- `secp256k1_extrakeys_ge_even_y`, extrakeys/main_impl.h:88-97, with the check of line 90. -/
def geEvenYV (r : Ge Fp) : Option (Ge Fp × Int) := if r.infinity then none else some (geEvenY r)

/-- `secp256k1_xonly_pubkey_from_pubkey`, extrakeys/main_impl.h:99-116 -/
def xonlyPubkeyFromPubkeyV (xonlyPubkey : Option (List UInt8)) (pkParity : Option Int)
    (pubkey : Option (List UInt8)) : Option (Out (Option (List UInt8) × Option Int)) :=
  match xonlyPubkey with
  | none => some (.argFail (none, pkParity))
  | some old =>
    match pubkey with
    | none => some (.argFail (some old, pkParity))
    | some pubkey =>
      let pk := pubkeyLoad pubkey
      if !pk.2 then some ⟨0, 1, (some old, pkParity)⟩
      else
        match geEvenYV pk.1 with
        | none => none
        | some e => some ⟨1, 0, (some (pubkeySave e.1), pkParity.map fun _ => e.2)⟩

/-- `secp256k1_keypair_xonly_pub`, extrakeys/main_impl.h:234-253 -/
def keypairXonlyPubV (pubkey : Option (List UInt8)) (pkParity : Option Int)
    (keypair : Option (List UInt8)) : Option (Out (Option (List UInt8) × Option Int)) :=
  match pubkey with
  | none => some (.argFail (none, pkParity))
  | some _ =>
    match keypair with
    | none => some (.argFail (some (zeros 64), pkParity))
    | some keypair =>
      let pk := keypairLoadPub keypair
      if !pk.2 then some ⟨0, 1, (some (zeros 64), pkParity)⟩
      else
        match geEvenYV pk.1 with
        | none => none
        | some e => some ⟨1, 0, (some (pubkeySave e.1), pkParity.map fun _ => e.2)⟩

/-- `secp256k1_keypair_xonly_tweak_add`, extrakeys/main_impl.h:255-283 -/
def keypairXonlyTweakAddV (keypair tweak32 : Option (List UInt8)) : Option (Out (Option (List UInt8))) :=
  match keypair with
  | none => some (.argFail none)
  | some keypair =>
    match tweak32 with
    | none => some (.argFail (some keypair))
    | some tweak32 =>
      let l := keypairLoad keypair
      match geEvenYV l.2.1 with
      | none => none
      | some e =>
        let sk := if e.2 = 1 then -l.1 else l.1
        let s := ecSeckeyTweakAddHelper sk tweak32
        let p := ecPubkeyTweakAddHelper e.1 tweak32
        let ret := l.2.2 && s.2 && p.2
        some ⟨cInt ret, if l.2.2 then 0 else 1, some (if ret then keypairSave s.1 p.1 else zeros 96)⟩

/-! ### MuSig -/

/-- The loop of `secp256k1_musig_compute_pks_hash`, keyagg_impl.h:84-92, with the check of line 90 and those of
the hash; the inner `none` is the return value 0. -/
def pksHashLoopV : List (List UInt8) → Hash.Sha → Option (Option Hash.Sha)
  | [], sha => some (some sha)
  | pk :: rest, sha =>
    let r := ecPubkeySerialize (some (zeros 33)) (some 33) (some pk) ecCompressed
    if r.ret = 0 then some none
    else if r.val.2 ≠ some 33 then none
    else
      match Hash.writeV sha (r.val.1.getD []) with
      | none => none
      | some sha => pksHashLoopV rest sha

/-- `secp256k1_musig_compute_pks_hash`, keyagg_impl.h:79-95 -/
def computePksHashV (pks : List (List UInt8)) : Option (Option (List UInt8)) :=
  match pksHashLoopV pks (shaMidstate Hash.uninit keyaggListMid) with
  | none => none
  | some none => some none
  | some (some sha) =>
    match Hash.finalizeV sha with
    | none => none
    | some r => some (some r.1)

/-- `secp256k1_musig_keyaggcoef_internal`, keyagg_impl.h:118-143, with the checks of lines 119 and 135 -/
def keyaggCoefInternalV (pksHash : List UInt8) (pk secondPk : Ge Fp) : Option Fn :=
  if pk.infinity then none
  else if !secondPk.infinity && geEqVar pk secondPk then some 1
  else do
    let sha := shaMidstate Hash.uninit keyaggCoefMid
    let sha ← Hash.writeV sha (pksHash.take 32)
    let buf := eckeyPubkeySerialize pk (zeros 33) 33 true
    if buf.2.2 && buf.2.1 == 33 then
      let sha ← Hash.writeV sha buf.1
      let r ← Hash.finalizeV sha
      some (scSetB32 r.1).1
    else none

/-- `secp256k1_musig_pubkey_agg_callback`, keyagg_impl.h:160-173, with the check of line 167.  It never returns
0, so `none` is a failed check. -/
def pubkeyAggCallbackV (pks : List (List UInt8)) (pksHash : List UInt8) (secondPk : Ge Fp) :
    MultiCallback := fun idx =>
  let l := pubkeyLoad (pks.getD idx [])
  if !l.2 then none
  else
    match keyaggCoefInternalV pksHash l.1 secondPk with
    | none => none
    | some k => some (k, l.1)

/-- The rest of `secp256k1_musig_pubkey_agg`, keyagg_impl.h:203-230, with the checks of line 217 and of
`secp256k1_extrakeys_ge_even_y`.  Without a scratch space `secp256k1_ecmult_multi_var` fails only if a callback
does, so here only by a failed check. -/
def pubkeyAggWithV (aggPk cache : Option (List UInt8)) (pks : List (List UInt8)) (secondPk : Ge Fp) :
    Option (Out (Option (List UInt8) × Option (List UInt8))) :=
  match computePksHashV pks with
  | none => none
  | some none => some ⟨0, 1, (aggPk, cache)⟩
  | some (some pksHash) =>
    match ecmultMultiVarNull none (pubkeyAggCallbackV pks pksHash secondPk) pks.length with
    | none => none
    | some pkj =>
      let pkp := geSetGej pkj
      let pkp := { pkp with y := FeOps.normalize pkp.y }
      if pkp.infinity then none
      else
        match geEvenYV pkp with
        | none => none
        | some e =>
          some ⟨1, 0,
            (aggPk.map fun _ => pubkeySave e.1,
             cache.map fun _ => keyaggCacheSave
               { pk := pkp, secondPk := secondPk, pksHash := pksHash, tweak := 0, parityAcc := 0 })⟩

/-- `secp256k1_musig_pubkey_agg`, keyagg_impl.h:175-231 -/
def musigPubkeyAggV (aggPk cache : Option (List UInt8)) (pubkeys : Option (List (List UInt8))) :
    Option (Out (Option (List UInt8) × Option (List UInt8))) :=
  let aggPk := aggPk.map fun _ => zeros 64
  match pubkeys with
  | none => some (.argFail (aggPk, cache))
  | some [] => some (.argFail (aggPk, cache))
  | some (pk0 :: rest) =>
    match findSecond pk0 rest with
    | none => pubkeyAggWithV aggPk cache (pk0 :: rest) geInfinity
    | some pk =>
      let l := pubkeyLoad pk
      if !l.2 then some ⟨0, 1, (aggPk, cache)⟩ else pubkeyAggWithV aggPk cache (pk0 :: rest) l.1

/-- keyagg_impl.h:266-269, with the check of `secp256k1_extrakeys_ge_even_y`, which is called only if `xonly`. -/
def cacheEvenV (c : KeyaggCache) (xonly : Bool) : Option KeyaggCache :=
  if xonly then
    match geEvenYV c.pk with
    | none => none
    | some e => some (if e.2 ≠ 0 then { c with pk := e.1, parityAcc := c.parityAcc ^^^ 1, tweak := -c.tweak } else c)
  else some c

/-- `secp256k1_musig_pubkey_tweak_add_internal`, keyagg_impl.h:247-281, with the check of line 275 -/
def musigTweakAddInternalV (outputPubkey cache tweak32 : Option (List UInt8)) (xonly : Bool) :
    Option (Out (Option (List UInt8) × Option (List UInt8))) :=
  let out := outputPubkey.map fun _ => zeros 64
  match cache with
  | none => some (.argFail (out, none))
  | some cache =>
    match tweak32 with
    | none => some (.argFail (out, some cache))
    | some tweak32 =>
      match keyaggCacheLoad cache with
      | none => some (.argFail (out, some cache))
      | some c =>
        let tweak := scSetB32 tweak32
        if tweak.2 then some ⟨0, 0, (out, some cache)⟩
        else
          match cacheEvenV c xonly with
          | none => none
          | some c =>
            let c := { c with tweak := c.tweak + tweak.1 }
            let r := eckeyPubkeyTweakAdd c.pk tweak.1
            if !r.2 then some ⟨0, 0, (out, some cache)⟩
            else
              let c := { c with pk := r.1 }
              if c.pk.infinity then none
              else some ⟨1, 0, (out.map fun _ => pubkeySave c.pk, some (keyaggCacheSave c))⟩

/-- session_impl.h:431-466, once all inputs are loaded, with the checks of lines 436, 437, 443 and 444.  The
checks in the hash functions that `secp256k1_nonce_function_musig` calls are left out. -/
def musigNonceGenCoreV (gen : GenCtx) (inputNonce : List UInt8) (seckey msg32 : Option (List UInt8))
    (pk : Ge Fp) (aggPk32 extraInput32 : Option (List UInt8)) (ret : Bool) :
    Option (List UInt8 × List UInt8) :=
  let pkSer := eckeyPubkeySerialize pk (zeros 33) 33 true
  if !pkSer.2.2 then none
  else if pkSer.2.1 ≠ 33 then none
  else
    let k := nonceFunctionMusig inputNonce msg32 seckey pkSer.1 aggPk32 extraInput32
    if scIsZero k.1 then none
    else if scIsZero k.2 then none
    else
      let secnonce := secnonceInvalidate (secnonceSave k.1 k.2 pk) (!ret)
      let pts := geSetAllGej [ecmultGen gen k.1, ecmultGen gen k.2]
      some (secnonce, pubnonceSave (pts.getD 0 geGarbage) (pts.getD 1 geGarbage))

/-- `secp256k1_musig_nonce_gen_internal`, session_impl.h:395-467 -/
def musigNonceGenInternalV (ctx : Ctx) (secnonce : List UInt8) (pubnonce : Option (List UInt8))
    (inputNonce : List UInt8) (seckey pubkey msg32 cache extraInput32 : Option (List UInt8)) :
    Option (Out (List UInt8 × Option (List UInt8))) :=
  match pubnonce with
  | none => some (.argFail (secnonce, none))
  | some _ =>
    match pubkey with
    | none => some (.argFail (secnonce, some (zeros 132)))
    | some pubkey =>
      if !ecmultGenIsBuilt ctx.gen then some (.argFail (secnonce, some (zeros 132)))
      else
        let ret := nonceGenSeckeyOk seckey
        match nonceGenAggPk cache with
        | none => some (.argFail (secnonce, some (zeros 132)))
        | some aggPk32 =>
          let pk := pubkeyLoad pubkey
          if !pk.2 then some ⟨0, 1, (secnonce, some (zeros 132))⟩
          else
            match musigNonceGenCoreV ctx.gen inputNonce seckey msg32 pk.1 aggPk32 extraInput32 ret with
            | none => none
            | some r => some ⟨cInt ret, 0, (r.1, some r.2)⟩

/-- `secp256k1_musig_nonce_gen`, session_impl.h:469-495 -/
def musigNonceGenV (ctx : Ctx) (secnonce pubnonce sessionSecrand32
    seckey pubkey msg32 cache extraInput32 : Option (List UInt8)) :
    Option (Out (Option (List UInt8) × Option (List UInt8) × Option (List UInt8))) :=
  match secnonce with
  | none => some (.argFail (none, pubnonce, sessionSecrand32))
  | some _ =>
    match sessionSecrand32 with
    | none => some (.argFail (some (zeros 132), pubnonce, none))
    | some rand =>
      if isZeroArray (rand.take 32) then
        some ⟨0, 0, (some (secnonceInvalidate (zeros 132) true), pubnonce, some rand)⟩
      else
        match musigNonceGenInternalV ctx (zeros 132) pubnonce rand seckey pubkey msg32 cache extraInput32 with
        | none => none
        | some r => some ⟨r.ret, r.illegal,
            (some r.val.1, r.val.2, some (put rand 0 (memczero (rand.take 32) (decide (r.ret ≠ 0)))))⟩

/-- `secp256k1_musig_nonce_gen_counter`, session_impl.h:497-523, with the checks of lines 511 and 513 -/
def musigNonceGenCounterV (ctx : Ctx) (secnonce pubnonce : Option (List UInt8)) (cnt : UInt64)
    (keypair msg32 cache extraInput32 : Option (List UInt8)) :
    Option (Out (Option (List UInt8) × Option (List UInt8))) :=
  match secnonce with
  | none => some (.argFail (none, pubnonce))
  | some _ =>
    match keypair with
    | none => some (.argFail (some (zeros 132), pubnonce))
    | some keypair =>
      let buf := Spec.beBytes 8 cnt.toNat ++ zeros 24
      let seckey := keypairSec (some (zeros 32)) (some keypair)
      if seckey.ret = 0 then none
      else
        let pubkey := keypairPub (some (zeros 64)) (some keypair)
        if pubkey.ret = 0 then none
        else
          match musigNonceGenInternalV ctx (zeros 132) pubnonce buf seckey.val pubkey.val msg32 cache
              extraInput32 with
          | none => none
          | some r => some ⟨if r.ret = 0 then 0 else 1, r.illegal, (some r.val.1, r.val.2)⟩

end Secp.Model
