import Verif.Proof.LeakMul

/-! # The functions with a record of what they reveal compute what the functions of the model compute -/

namespace Secp.Leak

open Model (Ge Gej Ctx GenCtx zeros put cInt)

theorem val_branch_bind {α : Type} (b : Bool) (f : Bool → Ct α) : (branch b >>= f).val = (f b).val := rfl

@[simp] theorem val_declassify (l : List Nat) : (declassify l).val = () := rfl

theorem val_contextRandomize (ctx : Ctx) (seed : Option (List UInt8)) :
    (contextRandomize ctx seed).val = Model.contextRandomize ctx seed := by
  unfold contextRandomize Model.contextRandomize
  simp only [↓val_branch_ite, val_bind, val_ecmultGenBlind, val_pure]

theorem val_ecSeckeyVerify (s : Option (List UInt8)) :
    (ecSeckeyVerify s).val = Model.ecSeckeyVerify s := by
  cases s <;> rfl

theorem val_ecPubkeyCreateHelper (gen : GenCtx) (s : List UInt8) :
    (ecPubkeyCreateHelper gen s).val = Model.ecPubkeyCreateHelper gen s := by
  unfold ecPubkeyCreateHelper Model.ecPubkeyCreateHelper
  simp only [val_bind, val_ecmultGen, val_pure]

theorem val_ecPubkeyCreate (ctx : Ctx) (p s : Option (List UInt8)) :
    (ecPubkeyCreate ctx p s).val = Model.ecPubkeyCreate ctx p s := by
  unfold ecPubkeyCreate Model.ecPubkeyCreate
  cases p <;> cases s <;>
  simp only [val_bind, ↓val_branch_ite, val_ecPubkeyCreateHelper, val_pure]

theorem val_ecSeckeyNegate (s : Option (List UInt8)) :
    (ecSeckeyNegate s).val = Model.ecSeckeyNegate s := by
  unfold ecSeckeyNegate Model.ecSeckeyNegate
  cases s <;> simp only [val_bind, val_pure]

theorem val_ecSeckeyTweakAdd (s t : Option (List UInt8)) :
    (ecSeckeyTweakAdd s t).val = Model.ecSeckeyTweakAdd s t := by
  unfold ecSeckeyTweakAdd Model.ecSeckeyTweakAdd
  cases s <;> cases t <;> simp only [val_bind, val_pure]

theorem val_ecSeckeyTweakMul (s t : Option (List UInt8)) :
    (ecSeckeyTweakMul s t).val = Model.ecSeckeyTweakMul s t := by
  unfold ecSeckeyTweakMul Model.ecSeckeyTweakMul
  cases s <;> cases t <;> simp only [val_bind, val_pure]

theorem val_pubkeyLoad (p : List UInt8) : (pubkeyLoad p).val = Model.pubkeyLoad p := rfl

theorem val_keypairCreate (ctx : Ctx) (k s : Option (List UInt8)) :
    (keypairCreate ctx k s).val = Model.keypairCreate ctx k s := by
  unfold keypairCreate Model.keypairCreate
  cases k <;> cases s <;>
  simp only [val_bind, ↓val_branch_ite, val_ecPubkeyCreateHelper, val_pure]

theorem val_keypairSeckeyLoad (k : List UInt8) :
    (keypairSeckeyLoad k).val = Model.keypairSeckeyLoad k := rfl

theorem pubkeyLoad_take (b : List UInt8) : Model.pubkeyLoad (b.take 64) = Model.pubkeyLoad b := by
  unfold Model.pubkeyLoad Model.geFromBytes
  rw [List.take_take, List.drop_take, List.take_take]
  rfl

theorem val_keypairSkOf (k : List UInt8) (b : Bool) :
    (keypairSkOf k b).val = if b then Model.keypairSeckeyLoad k else (0, false) := by
  cases b <;> rfl

theorem val_keypairLoad (k : List UInt8) : (keypairLoad k).val = Model.keypairLoad k := by
  unfold keypairLoad Model.keypairLoad
  rw [← pubkeyLoad_take (k.drop 32)]
  generalize (k.drop 32).take 64 = b
  simp only [↓val_branch_ite, val_bind, val_pubkeyLoad, val_keypairSkOf, val_pure]
  cases (Model.pubkeyLoad b).2 <;> simp

theorem val_geEvenY (r : Ge Fp) : (geEvenY r).val = Model.geEvenY r := by
  unfold geEvenY Model.geEvenY
  simp only [↓val_branch_ite, val_pure]

theorem val_ecPubkeyTweakAddHelper (p : Ge Fp) (t : List UInt8) :
    (ecPubkeyTweakAddHelper p t).val = Model.ecPubkeyTweakAddHelper p t := by
  unfold ecPubkeyTweakAddHelper Model.ecPubkeyTweakAddHelper
  simp only [↓val_branch_ite, val_pure, val_vartime]

theorem val_keypairXonlyTweakAdd (k t : Option (List UInt8)) :
    (keypairXonlyTweakAdd k t).val = Model.keypairXonlyTweakAdd k t := by
  unfold keypairXonlyTweakAdd Model.keypairXonlyTweakAdd
  cases k <;> cases t <;>
  simp only [val_bind, val_keypairLoad, val_geEvenY, val_ecPubkeyTweakAddHelper, val_pure, ↓val_branch_bind,
    decide_eq_true_eq]

theorem val_rfc6979Loop (k : Nat) : ∀ (rng : Hash.Rng) (n : List UInt8),
    (rfc6979Loop k rng n).val = Model.rfc6979Loop k rng n := by
  induction k with
  | zero => intros; rfl
  | succ k ih => intros; rw [rfc6979Loop, val_bind, val_bind, ih, val_rngGenerate, Model.rfc6979Loop]

theorem val_nonceFunctionRfc6979 (m k : List UInt8) (a d : Option (List UInt8)) (c : UInt32) :
    (nonceFunctionRfc6979 m k a d c).val = Model.nonceFunctionRfc6979 m k a d c := by
  unfold nonceFunctionRfc6979 Model.nonceFunctionRfc6979
  simp only [↓val_branch_ite, val_pure, val_bind, val_rngInitialize, val_rfc6979Loop, decide_eq_true_eq]

theorem fn_nonceFnOrDefault (f : Option NonceFn) :
    (nonceFnOrDefault f).fn = Model.nonceFnOrDefault (f.map NonceFn.fn) := by
  cases f with
  | some f => rfl
  | none =>
    funext i m k a d c
    exact val_nonceFunctionRfc6979 m k a d c

theorem val_ecdsaSigSign (gen : GenCtx) (s m k : Fn) (r : Bool) :
    (ecdsaSigSign gen s m k r).val = Model.ecdsaSigSign gen s m k := by
  unfold ecdsaSigSign Model.ecdsaSigSign
  simp only [val_bind, val_ecmultGen, val_pure]

theorem val_signLoop (gen : GenCtx) (f : NonceFn) (r : Bool) (m k : List UInt8)
    (d : Option (List UInt8)) (sec msg : Fn) (fuel : Nat) : ∀ i st,
    (signLoop gen f r m k d sec msg fuel i st).val =
      Model.signLoop gen f.fn m k d sec msg fuel i st := by
  induction fuel with
  | zero => intros; rfl
  | succ fuel ih =>
    intro i st
    rw [signLoop, Model.signLoop, val_bind, NonceFn.fn]
    cases (f i m k none d (UInt32.ofNat i)).val with
    | none => rfl
    | some x =>
      simp only [↓val_branch_ite, val_bind, val_pure, decide_eq_true_eq, val_ecdsaSigSign, ih]

theorem val_ecdsaSignInner (fuel : Nat) (ctx : Ctx) (r : Bool) (m k : List UInt8) (f : Option NonceFn)
    (d : Option (List UInt8)) :
    (ecdsaSignInner fuel ctx r m k f d).val =
      Model.ecdsaSignInner fuel ctx m k (f.map NonceFn.fn) d := by
  unfold ecdsaSignInner Model.ecdsaSignInner
  rw [← fn_nonceFnOrDefault]
  simp only [val_bind, val_signLoop]
  generalize Model.signLoop _ _ _ _ _ _ _ _ _ _ = o
  cases o <;> simp only [val_bind, val_pure]

theorem val_ecdsaSign (fuel : Nat) (ctx : Ctx) (sig m k : Option (List UInt8)) (f : Option NonceFn)
    (d : Option (List UInt8)) :
    (ecdsaSign fuel ctx sig m k f d).val = Model.ecdsaSign fuel ctx sig m k (f.map NonceFn.fn) d := by
  unfold ecdsaSign ecdsaSignWith Model.ecdsaSign
  cases m <;> cases sig <;> cases k <;>
  simp only [↓val_branch_ite, val_bind, val_pure, val_ecdsaSignInner]
  generalize Model.ecdsaSignInner _ _ _ _ _ _ = o
  cases o <;> rfl

theorem val_ecdsaSignRecoverable (fuel : Nat) (ctx : Ctx) (sig m k : Option (List UInt8))
    (f : Option NonceFn) (d : Option (List UInt8)) :
    (ecdsaSignRecoverable fuel ctx sig m k f d).val =
      Model.ecdsaSignRecoverable fuel ctx sig m k (f.map NonceFn.fn) d := by
  unfold ecdsaSignRecoverable ecdsaSignWith Model.ecdsaSignRecoverable
  cases m <;> cases sig <;> cases k <;>
  simp only [↓val_branch_ite, val_bind, val_pure, val_ecdsaSignInner]
  generalize Model.ecdsaSignInner _ _ _ _ _ _ = o
  cases o <;> rfl

theorem val_bip340Mask (k : List UInt8) (d : Option (List UInt8)) :
    (bip340Mask k d).val = Model.bip340Mask k d := by
  cases d <;> simp only [bip340Mask, Model.bip340Mask, val_bind, val_write, val_finalize, val_pure]

theorem val_bip340Same (a : List UInt8) :
    (bip340Same a).val = decide (a.length = 13 ∧ Model.memcmpVar a Model.bip340Algo a.length = 0) := by
  unfold bip340Same
  simp only [↓val_branch_ite, val_pure, val_vartime, decide_eq_true_eq]
  by_cases h : a.length = 13 <;> simp [h]

theorem val_bip340Init (a : List UInt8) : (bip340Init a).val =
    if a.length = 13 ∧ Model.memcmpVar a Model.bip340Algo a.length = 0
      then Model.shaMidstate Hash.uninit Model.bip340NonceMid
      else Hash.initializeTagged Hash.uninit a := by
  unfold bip340Init
  simp only [val_bind, ↓val_branch_ite, val_pure, val_initializeTagged, val_bip340Same, decide_eq_true_eq]

theorem fn_nonceFunctionBip340 : nonceFunctionBip340.fn = Model.nonceFunctionBip340 := by
  funext m k x a d
  unfold NonceHardened.fn nonceFunctionBip340 Model.nonceFunctionBip340
  cases a <;> simp only [val_bind, val_bip340Mask, val_bip340Init, val_write, val_finalize, val_pure]

theorem val_schnorrsigChallenge (r m x : List UInt8) :
    (schnorrsigChallenge r m x).val = Model.schnorrsigChallenge r m x := by
  unfold schnorrsigChallenge Model.schnorrsigChallenge
  simp only [val_bind, val_write, val_finalize, val_pure]

theorem val_schnorrsigSignCore (gen : GenCtx) (m k : List UInt8) (f : NonceHardened)
    (d : Option (List UInt8)) :
    (schnorrsigSignCore gen m k f d).val =
      ((Model.schnorrsigSignCore gen m k f.fn d).1, (Model.schnorrsigSignCore gen m k f.fn d).2,
        (Model.keypairLoad k).2.2) := by
  unfold schnorrsigSignCore Model.schnorrsigSignCore NonceHardened.fn
  rw [val_bind, val_keypairLoad, val_branch_bind]
  dsimp only
  rw [val_bind]
  generalize Ct.val (f _ _ _ _ _) = nc
  rw [val_bind, val_ecmultGen]
  generalize Model.geSetGej (Model.ecmultGen (α := Fp) _ _) = r
  rw [val_bind, val_bind, val_vartime, val_branch_bind, val_bind, val_vartime, val_bind,
    val_schnorrsigChallenge, val_pure]

theorem val_schnorrsigSignInternal (ctx : Ctx) (sig m : Option (List UInt8)) (l : Nat)
    (k : Option (List UInt8)) (f : Option NonceHardened) (d : Option (List UInt8)) :
    (schnorrsigSignInternal ctx sig m l k f d).val =
      Model.schnorrsigSignInternal ctx sig m l k (f.map NonceHardened.fn) d := by
  have hf : (f.getD nonceFunctionBip340).fn =
      (f.map NonceHardened.fn).getD Model.nonceFunctionBip340 := by
    cases f with
    | some f => rfl
    | none => exact fn_nonceFunctionBip340
  unfold schnorrsigSignInternal Model.schnorrsigSignInternal
  rw [← hf]
  cases sig <;> cases k <;>
  simp only [↓val_branch_ite, val_bind, val_pure, val_schnorrsigSignCore, decide_eq_true_eq]

theorem val_schnorrsigSign32 (ctx : Ctx) (sig m k d : Option (List UInt8)) :
    (schnorrsigSign32 ctx sig m k d).val = Model.schnorrsigSign32 ctx sig m k d := by
  unfold schnorrsigSign32 Model.schnorrsigSign32
  rw [val_schnorrsigSignInternal, Option.map_some, fn_nonceFunctionBip340]

theorem val_schnorrsigSignCustom (ctx : Ctx) (sig m : Option (List UInt8)) (l : Nat)
    (k : Option (List UInt8)) (e : Option SchnorrExtra) :
    (schnorrsigSignCustom ctx sig m l k e).val =
      Model.schnorrsigSignCustom ctx sig m l k (e.map SchnorrExtra.plain) := by
  unfold schnorrsigSignCustom Model.schnorrsigSignCustom
  cases e with
  | none => simp only [val_bind, val_schnorrsigSignInternal]; rfl
  | some e =>
    simp only [val_bind, ↓val_branch_ite, val_vartime, val_pure, val_schnorrsigSignInternal,
      decide_eq_true_eq, Option.map_some, SchnorrExtra.plain]

theorem fn_ecdhHashSha256 : ecdhHashSha256.fn = Model.ecdhHashSha256 := by
  funext o x y
  unfold EcdhHash.fn ecdhHashSha256 Model.ecdhHashSha256
  simp only [val_bind, val_write, val_finalize, val_pure]

theorem fn_ecdhHashOrDefault (f : Option EcdhHash) :
    (ecdhHashOrDefault f).fn = Model.ecdhHashOrDefault (f.map EcdhHash.fn) := by
  cases f with
  | some f => rfl
  | none => exact fn_ecdhHashSha256

theorem val_ecdh (o p s : Option (List UInt8)) (f : Option EcdhHash) :
    (ecdh o p s f).val = Model.ecdh o p s (f.map EcdhHash.fn) := by
  unfold ecdh Model.ecdh
  rw [← fn_ecdhHashOrDefault]
  unfold EcdhHash.fn
  cases o <;> cases p <;> cases s <;> try rfl

theorem fn_ellswiftHashPrefix (d : List UInt8) :
    (ellswiftHashPrefix d).fn = Model.ellswiftHashPrefix d := by
  funext o x a b
  unfold EllswiftHash.fn ellswiftHashPrefix Model.ellswiftHashPrefix
  simp only [val_bind, val_write, val_finalize, val_pure]

theorem fn_ellswiftHashBip324 : ellswiftHashBip324.fn = Model.ellswiftHashBip324 := by
  funext o x a b
  unfold EllswiftHash.fn ellswiftHashBip324 Model.ellswiftHashBip324
  simp only [val_bind, val_write, val_finalize, val_pure]

theorem val_ellswiftXdh (o a b s : Option (List UInt8)) (party : Int) (f : Option EllswiftHash) :
    (ellswiftXdh o a b s party f).val = Model.ellswiftXdh o a b s party (f.map EllswiftHash.fn) := by
  unfold ellswiftXdh Model.ellswiftXdh EllswiftHash.fn
  cases o <;> cases a <;> cases b <;> cases s <;> cases f <;>
  simp only [val_bind, val_pure, val_vartime, val_ecmultConstXonly, ↓val_branch_bind, decide_eq_true_eq,
    Option.map_some, Option.map_none]

theorem val_ellswiftCreate (ctx : Ctx) (fuel : Nat) (e s a : Option (List UInt8)) :
    (ellswiftCreate ctx fuel e s a).val = Model.ellswiftCreate ctx fuel e s a := by
  unfold ellswiftCreate Model.ellswiftCreate Model.ellswiftCreateHasher
  cases e <;> cases s <;> cases a <;>
  simp only [↓val_branch_ite, val_bind, val_pure, val_vartime, val_ecPubkeyCreateHelper, val_write] <;>
  (generalize Model.elligatorswiftVar _ _ _ = o; cases o <;> rfl)

theorem val_keyaggCacheLoad (c : List UInt8) : (keyaggCacheLoad c).val = Model.keyaggCacheLoad c := by
  unfold keyaggCacheLoad Model.keyaggCacheLoad
  simp only [val_bind, ↓val_branch_ite, val_pure, val_vartime, decide_eq_true_eq]

theorem val_secnonceInvalidate (s : List UInt8) (f : Bool) :
    (secnonceInvalidate s f).val = Model.secnonceInvalidate s f := rfl

theorem val_musigNonceHelper (h : Hash.Sha) (n : Nat) (d : Option (List UInt8)) (l : Nat) :
    (musigNonceHelper h n d l).val = Model.musigNonceHelper h n d l := by
  unfold musigNonceHelper Model.musigNonceHelper
  cases d <;> simp only [val_bind, val_write]

theorem val_musigRand (r : List UInt8) (s : Option (List UInt8)) :
    (musigRand r s).val = Model.musigRand r s := by
  unfold musigRand Model.musigRand
  cases s <;> simp only [val_bind, val_write, val_finalize, val_pure]

theorem val_musigNonceMsg (h : Hash.Sha) (m : Option (List UInt8)) :
    (musigNonceMsg h m).val = if m.isSome then Model.musigNonceHelper h 8 m 32 else h := by
  unfold musigNonceMsg
  simp only [↓val_branch_ite, val_pure, val_musigNonceHelper]

theorem val_musigNonceState (r : List UInt8) (m : Option (List UInt8)) (p : List UInt8)
    (a x : Option (List UInt8)) :
    (musigNonceState r m p a x).val = Model.musigNonceState r m p a x := by
  unfold musigNonceState Model.musigNonceState
  simp only [val_bind, val_write, val_musigNonceHelper, val_musigNonceMsg]

theorem val_musigNonceK (h : Hash.Sha) (i : UInt8) : (musigNonceK h i).val = Model.musigNonceK h i := by
  unfold musigNonceK Model.musigNonceK
  simp only [val_bind, val_write, val_finalize, val_pure]

theorem val_nonceFunctionMusig (r : List UInt8) (m s : Option (List UInt8)) (p : List UInt8)
    (a x : Option (List UInt8)) :
    (nonceFunctionMusig r m s p a x).val = Model.nonceFunctionMusig r m s p a x := by
  unfold nonceFunctionMusig Model.nonceFunctionMusig
  simp only [val_bind, val_musigRand, val_musigNonceState, val_musigNonceK, val_pure]

theorem val_musigNonceGenCore (gen : GenCtx) (n : List UInt8) (s m : Option (List UInt8)) (pk : Ge Fp)
    (a x : Option (List UInt8)) (ret : Bool) :
    (musigNonceGenCore gen n s m pk a x ret).val = Model.musigNonceGenCore gen n s m pk a x ret := by
  unfold musigNonceGenCore Model.musigNonceGenCore
  simp only [val_bind, val_nonceFunctionMusig, val_secnonceInvalidate, val_ecmultGen, val_pure, val_vartime]

theorem val_nonceGenAggPk (c : Option (List UInt8)) :
    (nonceGenAggPk c).val = Model.nonceGenAggPk c := by
  unfold nonceGenAggPk Model.nonceGenAggPk
  cases c with
  | none => rfl
  | some c =>
    simp only [val_bind, val_keyaggCacheLoad]
    cases Model.keyaggCacheLoad c <;> rfl

theorem val_musigNonceGenInternal (ctx : Ctx) (sn : List UInt8) (pn : Option (List UInt8))
    (n : List UInt8) (s p m c x : Option (List UInt8)) :
    (musigNonceGenInternal ctx sn pn n s p m c x).val =
      Model.musigNonceGenInternal ctx sn pn n s p m c x := by
  unfold musigNonceGenInternal Model.musigNonceGenInternal
  cases pn <;> cases p <;>
  simp only [↓val_branch_ite, val_bind, val_pure, val_nonceGenAggPk]
  generalize Model.nonceGenAggPk _ = o
  cases o <;>
  simp only [↓val_branch_ite, val_bind, val_pure, val_pubkeyLoad, val_musigNonceGenCore]

theorem val_musigNonceGen (ctx : Ctx) (sn pn r s p m c x : Option (List UInt8)) :
    (musigNonceGen ctx sn pn r s p m c x).val = Model.musigNonceGen ctx sn pn r s p m c x := by
  unfold musigNonceGen Model.musigNonceGen
  cases sn <;> cases r <;>
  simp only [↓val_branch_ite, val_bind, val_pure, val_secnonceInvalidate, val_musigNonceGenInternal]

theorem val_musigNonceGenCounter (ctx : Ctx) (sn pn : Option (List UInt8)) (n : UInt64)
    (k m c x : Option (List UInt8)) :
    (musigNonceGenCounter ctx sn pn n k m c x).val = Model.musigNonceGenCounter ctx sn pn n k m c x := by
  unfold musigNonceGenCounter Model.musigNonceGenCounter
  cases sn <;> cases k <;>
  simp only [val_bind, val_pure, ↓val_branch_bind, val_musigNonceGenInternal, decide_eq_true_eq]

theorem val_secnonceLoad (s : List UInt8) : (secnonceLoad s).val = Model.secnonceLoad s := by
  unfold secnonceLoad Model.secnonceLoad
  simp only [val_bind, ↓val_branch_ite, val_pure, val_vartime, decide_eq_true_eq]

theorem val_sessionLoad (s : List UInt8) : (sessionLoad s).val = Model.sessionLoad s := by
  unfold sessionLoad
  simp only [val_bind, ↓val_branch_ite, val_pure, val_vartime, decide_eq_true_eq]
  unfold Model.sessionLoad
  split <;> simp_all

theorem val_keyaggCoef (c : Model.KeyaggCache) (pk : Ge Fp) :
    (keyaggCoef c pk).val = Model.keyaggCoef c pk := rfl

theorem val_partialSignEq (a b : Ge Fp) : (partialSignEq a b).val =
    (Model.FeOps.equal a.x b.x && Model.FeOps.equal a.y b.y) := by
  unfold partialSignEq
  simp only [↓val_branch_ite, val_pure, val_branch]
  cases Model.FeOps.equal a.x b.x <;> simp

theorem val_partialSignWith (o k c s : Option (List UInt8)) (k0 k1 : Fn) (pk : Ge Fp) :
    (partialSignWith o k c s k0 k1 pk).val = Model.partialSignWith o k c s k0 k1 pk := by
  unfold partialSignWith Model.partialSignWith
  cases o <;> cases k <;> cases c <;> cases s <;>
  simp only [↓val_branch_ite, val_bind, val_pure, val_keypairLoad, val_partialSignEq, val_keyaggCacheLoad]
  generalize Model.keyaggCacheLoad _ = o
  cases o with
  | none => rfl
  | some c =>
    simp only [val_bind, val_sessionLoad, val_keyaggCoef, ↓val_branch_bind]
    generalize Model.sessionLoad _ = o
    cases o with
    | none => rfl
    | some s => simp only [val_bind, val_pure, ↓val_branch_bind, Model.partialSignValue, decide_eq_true_eq]

theorem val_musigPartialSign (o n k c s : Option (List UInt8)) :
    (musigPartialSign o n k c s).val = Model.musigPartialSign o n k c s := by
  unfold musigPartialSign Model.musigPartialSign
  cases n <;> simp only [val_bind, val_pure, val_secnonceLoad]
  generalize Model.secnonceLoad _ = o
  cases o <;> simp only [val_bind, val_pure, val_partialSignWith]

end Secp.Leak
