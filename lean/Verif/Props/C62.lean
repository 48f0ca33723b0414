import Verif.Props.C38
import Verif.Proof.Extrakeys
import Verif.Props.C10
import Verif.Proof.LeakDecl

/-!
# C62: what an observer of the execution learns does not depend on the secrets

`Leak.f` is the function `f` of the other model files with a record of what an observer sees: branches,
computed memory positions, arguments of variable-time functions, declassified values (see
`Verif/Model/Leak.lean` for what counts as a single step, and `Verif/Spec/Leak.lean` for the notions).
The theorems compare two executions: arguments that occur once are public and the same in both, those with
a prime are secrets, and only their lengths are the same.
-/

namespace Secp
open Model Spec
open Leak (SameShape SameKind LooksSame RevealsOnlyDeclassified declassified bytesNats geNats)

/-! ## The recorded functions are the functions of the model -/

theorem C62_model_keys (ctx : Ctx) (out key tweak seed : Option Bytes) :
    (Leak.contextRandomize ctx seed).val = contextRandomize ctx seed ∧
    (Leak.ecSeckeyVerify key).val = ecSeckeyVerify key ∧
    (Leak.ecPubkeyCreate ctx out key).val = ecPubkeyCreate ctx out key ∧
    (Leak.ecSeckeyNegate key).val = ecSeckeyNegate key ∧
    (Leak.ecSeckeyTweakAdd key tweak).val = ecSeckeyTweakAdd key tweak ∧
    (Leak.ecSeckeyTweakMul key tweak).val = ecSeckeyTweakMul key tweak ∧
    (Leak.keypairCreate ctx out key).val = keypairCreate ctx out key ∧
    (Leak.keypairXonlyTweakAdd key tweak).val = keypairXonlyTweakAdd key tweak :=
  ⟨Leak.val_contextRandomize _ _, Leak.val_ecSeckeyVerify _, Leak.val_ecPubkeyCreate _ _ _,
    Leak.val_ecSeckeyNegate _, Leak.val_ecSeckeyTweakAdd _ _, Leak.val_ecSeckeyTweakMul _ _,
    Leak.val_keypairCreate _ _ _, Leak.val_keypairXonlyTweakAdd _ _⟩

theorem C62_model_sign (fuel : ℕ) (ctx : Ctx) (sig msg key data aux : Option Bytes) (msglen : ℕ)
    (f : Option Leak.NonceFn) (extra : Option Leak.SchnorrExtra) :
    (Leak.ecdsaSign fuel ctx sig msg key f data).val =
      ecdsaSign fuel ctx sig msg key (f.map Leak.NonceFn.fn) data ∧
    (Leak.ecdsaSignRecoverable fuel ctx sig msg key f data).val =
      ecdsaSignRecoverable fuel ctx sig msg key (f.map Leak.NonceFn.fn) data ∧
    (Leak.schnorrsigSign32 ctx sig msg key aux).val = schnorrsigSign32 ctx sig msg key aux ∧
    (Leak.schnorrsigSignCustom ctx sig msg msglen key extra).val =
      schnorrsigSignCustom ctx sig msg msglen key (extra.map Leak.SchnorrExtra.plain) :=
  ⟨Leak.val_ecdsaSign _ _ _ _ _ _ _, Leak.val_ecdsaSignRecoverable _ _ _ _ _ _ _,
    Leak.val_schnorrsigSign32 _ _ _ _ _, Leak.val_schnorrsigSignCustom _ _ _ _ _ _⟩

theorem C62_model_exchange (fuel : ℕ) (ctx : Ctx) (out point key ellA ellB aux : Option Bytes) (party : Int)
    (f : Option Leak.EcdhHash) (g : Option Leak.EllswiftHash) :
    (Leak.ecdh out point key f).val = ecdh out point key (f.map Leak.EcdhHash.fn) ∧
    (Leak.ellswiftXdh out ellA ellB key party g).val =
      ellswiftXdh out ellA ellB key party (g.map Leak.EllswiftHash.fn) ∧
    (Leak.ellswiftCreate ctx fuel out key aux).val = ellswiftCreate ctx fuel out key aux :=
  ⟨Leak.val_ecdh _ _ _ _, Leak.val_ellswiftXdh _ _ _ _ _ _, Leak.val_ellswiftCreate _ _ _ _ _⟩

theorem C62_model_musig (ctx : Ctx) (psig secnonce pubnonce rand key pubkey msg cache session extra keypair :
    Option Bytes) (cnt : UInt64) :
    (Leak.musigNonceGen ctx secnonce pubnonce rand key pubkey msg cache extra).val =
      musigNonceGen ctx secnonce pubnonce rand key pubkey msg cache extra ∧
    (Leak.musigNonceGenCounter ctx secnonce pubnonce cnt keypair msg cache extra).val =
      musigNonceGenCounter ctx secnonce pubnonce cnt keypair msg cache extra ∧
    (Leak.musigPartialSign psig secnonce keypair cache session).val =
      musigPartialSign psig secnonce keypair cache session :=
  ⟨Leak.val_musigNonceGen _ _ _ _ _ _ _ _ _, Leak.val_musigNonceGenCounter _ _ _ _ _ _ _ _,
    Leak.val_musigPartialSign _ _ _ _ _⟩

/-- The default nonce and hash functions with their record compute the default functions. -/
theorem C62_model_defaults (msg key pk out x y a b data : Bytes) (algo aux : Option Bytes) (attempt : UInt32) :
    (Leak.nonceFunctionRfc6979 msg key algo aux attempt).val =
      nonceFunctionRfc6979 msg key algo aux attempt ∧
    (Leak.nonceFunctionBip340 msg key pk algo aux).val = nonceFunctionBip340 msg key pk algo aux ∧
    (Leak.ecdhHashSha256 out x y).val = ecdhHashSha256 out x y ∧
    (Leak.ellswiftHashPrefix data out x a b).val = ellswiftHashPrefix data out x a b ∧
    (Leak.ellswiftHashBip324 out x a b).val = ellswiftHashBip324 out x a b := by
  refine ⟨Leak.val_nonceFunctionRfc6979 _ _ _ _ _, ?_, ?_, ?_, ?_⟩
  · rw [← Leak.fn_nonceFunctionBip340]; rfl
  · rw [← Leak.fn_ecdhHashSha256]; rfl
  · rw [← Leak.fn_ellswiftHashPrefix]; rfl
  · rw [← Leak.fn_ellswiftHashBip324]; rfl

/-! ## Nothing about the secrets is revealed -/

/-- Randomizing a context reveals nothing about the seed, nor about the blinding of the context. -/
theorem C62_context_randomize {ctx ctx' : Ctx} (hc : SameKind ctx ctx') {seed seed' : Option Bytes}
    (hs : SameShape seed seed') :
    LooksSame (Leak.contextRandomize ctx seed) (Leak.contextRandomize ctx' seed') :=
  (Leak.same_contextRandomize hc hs).1

/-- Checking, negating and tweaking secret keys reveals nothing about the keys and the tweaks; not even
whether they are valid. -/
theorem C62_seckey {key key' tweak tweak' : Option Bytes} (hk : SameShape key key')
    (ht : SameShape tweak tweak') :
    LooksSame (Leak.ecSeckeyVerify key) (Leak.ecSeckeyVerify key') ∧
    LooksSame (Leak.ecSeckeyNegate key) (Leak.ecSeckeyNegate key') ∧
    LooksSame (Leak.ecSeckeyTweakAdd key tweak) (Leak.ecSeckeyTweakAdd key' tweak') ∧
    LooksSame (Leak.ecSeckeyTweakMul key tweak) (Leak.ecSeckeyTweakMul key' tweak') :=
  ⟨(Leak.same_ecSeckeyVerify hk).1, (Leak.same_ecSeckeyNegate hk).1, (Leak.same_ecSeckeyTweakAdd hk ht).1,
    (Leak.same_ecSeckeyTweakMul hk ht).1⟩

/-- Computing the public key and creating a keypair reveal nothing about the secret key. -/
theorem C62_pubkey_create {ctx ctx' : Ctx} (hc : SameKind ctx ctx') {out out' key key' : Option Bytes}
    (ho : SameShape out out') (hk : SameShape key key') :
    LooksSame (Leak.ecPubkeyCreate ctx out key) (Leak.ecPubkeyCreate ctx' out' key') ∧
    LooksSame (Leak.keypairCreate ctx out key) (Leak.keypairCreate ctx' out' key') :=
  ⟨(Leak.same_ecPubkeyCreate hc ho hk).1, (Leak.same_keypairCreate hc ho hk).1⟩

/-- The default nonce functions and hash functions reveal nothing about their arguments. -/
theorem C62_defaults_constant_time (data : Bytes) :
    Leak.NonceFn.ConstTime (fun _ => Leak.nonceFunctionRfc6979) ∧
    Leak.NonceHardened.ConstTime Leak.nonceFunctionBip340 ∧
    Leak.EcdhHash.ConstTime Leak.ecdhHashSha256 ∧
    Leak.EllswiftHash.ConstTime (Leak.ellswiftHashPrefix data) ∧
    Leak.EllswiftHash.ConstTime Leak.ellswiftHashBip324 :=
  ⟨Leak.constTime_rfc6979, Leak.constTime_bip340, Leak.constTime_ecdhHashSha256,
    Leak.constTime_ellswiftHashPrefix data, Leak.constTime_ellswiftHashBip324⟩

/-- A key exchange with a public point reveals nothing about the secret key, not even whether it is valid,
if the hash function reveals nothing about its input. -/
theorem C62_ecdh {out out' key key' : Option Bytes} (point : Option Bytes) (ho : SameShape out out')
    (hk : SameShape key key') {f : Option Leak.EcdhHash} (hf : ∀ g, f = some g → g.ConstTime) :
    LooksSame (Leak.ecdh out point key f) (Leak.ecdh out' point key' f) :=
  (Leak.same_ecdh point ho hk hf).1

/-- The same for the key exchange with ElligatorSwift encodings. -/
theorem C62_ellswift_xdh {out out' key key' : Option Bytes} (ellA ellB : Option Bytes)
    (ho : SameShape out out') (hk : SameShape key key') (party : Int) {f : Option Leak.EllswiftHash}
    (hf : ∀ g, f = some g → g.ConstTime) :
    LooksSame (Leak.ellswiftXdh out ellA ellB key party f) (Leak.ellswiftXdh out' ellA ellB key' party f) :=
  (Leak.same_ellswiftXdh ellA ellB ho hk party hf).1

/-! ## Nothing but declassified values is revealed -/

/-- ECDSA signing, with a nonce function that reveals nothing about its arguments. -/
theorem C62_ecdsa_sign (fuel : ℕ) {ctx ctx' : Ctx} (hc : SameKind ctx ctx')
    {sig sig' msg msg' key key' data data' : Option Bytes} (hs : SameShape sig sig')
    (hm : SameShape msg msg') (hk : SameShape key key') (hd : SameShape data data')
    {f : Option Leak.NonceFn} (hf : ∀ g, f = some g → g.ConstTime) :
    RevealsOnlyDeclassified (Leak.ecdsaSign fuel ctx sig msg key f data)
      (Leak.ecdsaSign fuel ctx' sig' msg' key' f data') ∧
    RevealsOnlyDeclassified (Leak.ecdsaSignRecoverable fuel ctx sig msg key f data)
      (Leak.ecdsaSignRecoverable fuel ctx' sig' msg' key' f data') :=
  ⟨(Leak.agree_ecdsaSignWith _ _ fuel hc hs hm hk hf hd).trace_eq,
    (Leak.agree_ecdsaSignWith _ _ fuel hc hs hm hk hf hd).trace_eq⟩

/-- What ECDSA signing declassifies is single bits: whether a nonce is valid, and whether the signature
made with it is. -/
theorem C62_ecdsa_declassifies_bits (fuel : ℕ) (ctx : Ctx) (sig msg key data : Option Bytes)
    {f : Option Leak.NonceFn}
    (hf : ∀ g, f = some g → ∀ i m k a d c, declassified (g i m k a d c).trace = []) :
    ∀ v, v ∈ declassified (Leak.ecdsaSign fuel ctx sig msg key f data).trace ∨
      v ∈ declassified (Leak.ecdsaSignRecoverable fuel ctx sig msg key f data).trace → v = [0] ∨ v = [1] := by
  have hf' : ∀ g, f = some g → ∀ i m k a d c, Leak.Decl Leak.IsBit (g i m k a d c) := by
    intro g hg i m k a d c v hv
    rw [hf g hg] at hv
    cases hv
  intro v hv
  exact hv.elim (Leak.decl_ecdsaSignWith _ _ fuel ctx sig msg key hf' data v)
    (Leak.decl_ecdsaSignWith _ _ fuel ctx sig msg key hf' data v)

/-- When both executions succeed with the first nonce, an observer cannot tell them apart: different
secret keys, messages, nonce data and blinding of the contexts look the same. -/
theorem C62_ecdsa_first_nonce {ctx ctx' : Ctx} (hctx : LiveCtx ctx) (hctx' : LiveCtx ctx')
    (hc : ctx.gen.cfg = ctx'.gen.cfg) {sig sig' msg msg' key key' : Bytes} {data data' : Option Bytes}
    (hs : sig.length = sig'.length) (hm : msg.length = msg'.length) (hk : key.length = key'.length)
    (hd : SameShape data data') {f : Option Leak.NonceFn} (hf : ∀ g, f = some g → g.ConstTime)
    (hq : ∀ g, f = some g → ∀ i m k a d c, declassified (g i m k a d c).trace = [])
    {o o' : Out (Option Bytes)}
    (h : ecdsaSign 1 ctx (some sig) (some msg) (some key) (f.map Leak.NonceFn.fn) data = some o)
    (h' : ecdsaSign 1 ctx' (some sig') (some msg') (some key') (f.map Leak.NonceFn.fn) data' = some o')
    (hr : o.ret = 1) (hr' : o'.ret = 1) :
    LooksSame (Leak.ecdsaSign 1 ctx (some sig) (some msg) (some key) f data)
      (Leak.ecdsaSign 1 ctx' (some sig') (some msg') (some key') f data') := by
  have hb := hctx.ok.built
  have hb' := hctx'.ok.built
  have hq' : ∀ g, f = some g → ∀ i m k a d c, Leak.Decl (fun _ => False) (g i m k a d c) := by
    intro g hg i m k a d c v hv
    rw [hq g hg] at hv
    cases hv
  rw [← Leak.val_ecdsaSign] at h h'
  refine (C62_ecdsa_sign 1 ⟨hc, hb.trans hb'.symm⟩ (.mk hs) (.mk hm) (.mk hk) hd hf).1 ?_
  exact (Leak.ecdsaSignWith_first _ _ hb _ _ _ hq' _ h hr).trans
    (Leak.ecdsaSignWith_first _ _ hb' _ _ _ hq' _ h' hr').symm

/-- Schnorr signing. -/
theorem C62_schnorr_sign {ctx ctx' : Ctx} (hc : SameKind ctx ctx')
    {sig sig' msg msg' keypair keypair' aux aux' : Option Bytes} (hs : SameShape sig sig')
    (hm : SameShape msg msg') (hk : SameShape keypair keypair') (ha : SameShape aux aux') :
    RevealsOnlyDeclassified (Leak.schnorrsigSign32 ctx sig msg keypair aux)
      (Leak.schnorrsigSign32 ctx' sig' msg' keypair' aux') :=
  (Leak.agree_schnorrsigSignInternal hc hs hm 32 hk
    (by rintro g hg; obtain rfl := Option.some.inj hg; exact Leak.constTime_bip340) ha).trace_eq

/-- Schnorr signing of messages of any length, with any nonce function that reveals nothing. -/
theorem C62_schnorr_sign_custom {ctx ctx' : Ctx} (hc : SameKind ctx ctx')
    {sig sig' msg msg' keypair keypair' data data' : Option Bytes} (hs : SameShape sig sig')
    (hm : SameShape msg msg') (msglen : ℕ) (hk : SameShape keypair keypair') (hd : SameShape data data')
    (magic : Bytes) {f : Option Leak.NonceHardened} (hf : ∀ g, f = some g → g.ConstTime) :
    RevealsOnlyDeclassified (Leak.schnorrsigSignCustom ctx sig msg msglen keypair none)
      (Leak.schnorrsigSignCustom ctx' sig' msg' msglen keypair' none) ∧
    RevealsOnlyDeclassified (Leak.schnorrsigSignCustom ctx sig msg msglen keypair (some ⟨magic, f, data⟩))
      (Leak.schnorrsigSignCustom ctx' sig' msg' msglen keypair' (some ⟨magic, f, data'⟩)) := by
  constructor
  · refine (Leak.Agree.bind (Leak.Agree.branch rfl) fun _ _ _ =>
      Leak.agree_schnorrsigSignInternal hc hs hm msglen hk (by rintro g ⟨⟩) rfl).trace_eq
  · have h : Leak.Agree (fun _ _ => True)
        (Leak.schnorrsigSignCustom ctx sig msg msglen keypair (some ⟨magic, f, data⟩))
        (Leak.schnorrsigSignCustom ctx' sig' msg' msglen keypair' (some ⟨magic, f, data'⟩)) :=
      Leak.Agree.bind (Leak.Agree.branch rfl) fun _ _ _ => Leak.Agree.bind
        (Leak.Same.vartime rfl rfl).agree fun _ _ e => Leak.Agree.bind (Leak.Agree.branch e) fun _ _ e =>
        Leak.Agree.ite e (fun _ => Leak.Agree.pure trivial) fun _ =>
        Leak.agree_schnorrsigSignInternal hc hs hm msglen hk hf hd
    exact h.trace_eq

/-- What Schnorr signing declassifies is public anyway: the public key in the keypair, that the secret key
is valid, and a point whose x coordinate is the first half of the signature. -/
theorem C62_schnorr_declassifies_public {ctx : Ctx} (hctx : LiveCtx ctx) (old msg : Bytes) {d : Fn} (hd : d ≠ 0) (aux : Option Bytes) :
    ∃ R : Ge Fp, declassified (Leak.schnorrsigSign32 ctx (some old) (some msg) (some (keypairObject d))
        aux).trace = [bytesNats (keyObject (d.val • G)), [1], geNats R] ∧
      ∀ sig, schnorrsigSign32 ctx (some old) (some msg) (some (keypairObject d)) aux =
        ⟨1, 0, some sig⟩ → sig.take 32 = beBytes 32 R.x.val := by
  obtain ⟨a, hl, -⟩ := keypairLoad_obj hd
  obtain ⟨R, h1, h2⟩ := Leak.schnorrsigSignCore_declassified ctx.gen (msgBytes (some msg) 32)
    (keypairObject d) (f := Leak.nonceFunctionBip340) (fun _ _ _ _ _ => Leak.decl_bip340 _ _ _ _ _) aux
    (by rw [hl])
  have hb := hctx.ok.built
  refine ⟨R, ?_, ?_⟩
  · rw [keypairObject_drop, List.take_of_length_le (by rw [keyObject_length])] at h1
    rw [← h1]
    unfold Leak.schnorrsigSign32 Leak.schnorrsigSignInternal ecmultGenIsBuilt
    rw [hb, Leak.declassified_branch, if_neg (by simp), Leak.declassified_branch, Leak.declassified_branch,
      if_neg (by simp), Leak.declassified_branch, Leak.declassified_branch, Leak.declassified_bind,
      Leak.declassified_pure, List.append_nil]
    rfl
  · intro sig hs
    rw [Leak.val_schnorrsigSignCore, Leak.fn_nonceFunctionBip340] at h2
    unfold schnorrsigSign32 schnorrsigSignInternal ecmultGenIsBuilt at hs
    rw [hb, if_neg (by simp)] at hs
    dsimp only at hs
    rw [if_neg (by simp)] at hs
    dsimp only [Option.getD_some] at hs
    generalize schnorrsigSignCore _ _ _ _ _ = r at h2 hs
    obtain ⟨b, sg⟩ := r
    have e1 : cInt b = 1 := congrArg Out.ret hs
    have e3 : put old 0 sg = sig := Option.some.inj (congrArg Out.val hs)
    have hr : b = true := by
      cases b
      · cases e1
      · rfl
    have h3 : sg.take 32 = feGetB32 R.x := h2 hr
    have hlen : 32 ≤ sg.length := by
      have := congrArg List.length h3
      rw [Leak.feGetB32_len, List.length_take] at this
      omega
    rw [← e3, put, List.take_zero, List.nil_append, List.take_append_of_le_length hlen]
    exact h3

/-- Tweaking a keypair by a public tweak. -/
theorem C62_keypair_tweak {keypair keypair' : Option Bytes} (hk : SameShape keypair keypair')
    (tweak : Option Bytes) :
    RevealsOnlyDeclassified (Leak.keypairXonlyTweakAdd keypair tweak)
      (Leak.keypairXonlyTweakAdd keypair' tweak) :=
  (Leak.agree_keypairXonlyTweakAdd hk tweak).trace_eq

/-- Creating an ElligatorSwift encoding of the public key, with public auxiliary data. -/
theorem C62_ellswift_create {ctx ctx' : Ctx} (hc : SameKind ctx ctx') (fuel : ℕ)
    {ell ell' key key' : Option Bytes} (he : SameShape ell ell') (hk : SameShape key key')
    (aux : Option Bytes) :
    RevealsOnlyDeclassified (Leak.ellswiftCreate ctx fuel ell key aux)
      (Leak.ellswiftCreate ctx' fuel ell' key' aux) :=
  (Leak.agree_ellswiftCreate hc fuel he hk aux).trace_eq

/-- The C code declassifies the whole hash object at this point, including stale bytes of its buffer, which
are those of the secret key.  The variable-time search that follows does not read them: it depends on the
state, the number of bytes and the current block only, which is what `Leak.ellswiftCreate` records. -/
theorem C62_ellswift_search_public {h h' : Hash.Sha} (hs : h.s.length = h'.s.length)
    (hb : h.buf.length = 64) (hb' : h'.buf.length = 64) (e : Leak.shaNats h = Leak.shaNats h') (aux : Bytes)
    (fuel : ℕ) (p : Ge Fp) :
    elligatorswiftVar fuel p h = elligatorswiftVar fuel p h' ∧
    elligatorswiftVar fuel p (Hash.write h aux) = elligatorswiftVar fuel p (Hash.write h' aux) := by
  have hp := Leak.shaPub_of_nats hs hb hb' e
  exact ⟨Leak.elligatorswiftVar_pub hp fuel p, Leak.elligatorswiftVar_pub (Leak.write_pub hp aux) fuel p⟩

/-- Generating a MuSig nonce: the session randomness, the secret key, the message and the extra input are
secret; the public key and the key aggregation cache are public. -/
theorem C62_musig_nonce_gen {ctx ctx' : Ctx} (hc : SameKind ctx ctx')
    {secnonce secnonce' pubnonce pubnonce' rand rand' key key' msg msg' extra extra' : Option Bytes}
    (hn : SameShape secnonce secnonce') (hp : SameShape pubnonce pubnonce') (hr : SameShape rand rand')
    (hk : SameShape key key') (pubkey : Option Bytes) (hm : SameShape msg msg') (cache : Option Bytes)
    (he : SameShape extra extra') :
    RevealsOnlyDeclassified (Leak.musigNonceGen ctx secnonce pubnonce rand key pubkey msg cache extra)
      (Leak.musigNonceGen ctx' secnonce' pubnonce' rand' key' pubkey msg' cache extra') :=
  (Leak.agree_musigNonceGen hc hn hp hr hk pubkey hm cache he).trace_eq

/-- The same with a counter; the public key in the keypair is public. -/
theorem C62_musig_nonce_gen_counter {ctx ctx' : Ctx} (hc : SameKind ctx ctx')
    {secnonce secnonce' pubnonce pubnonce' keypair keypair' msg msg' extra extra' : Option Bytes}
    (hn : SameShape secnonce secnonce') (hp : SameShape pubnonce pubnonce') (cnt cnt' : UInt64)
    (hk : SameShape keypair keypair')
    (hpk : keypair.map (List.drop 32) = keypair'.map (List.drop 32)) (hm : SameShape msg msg')
    (cache : Option Bytes) (he : SameShape extra extra') :
    RevealsOnlyDeclassified (Leak.musigNonceGenCounter ctx secnonce pubnonce cnt keypair msg cache extra)
      (Leak.musigNonceGenCounter ctx' secnonce' pubnonce' cnt' keypair' msg' cache extra') :=
  (Leak.agree_musigNonceGenCounter hc hn hp cnt cnt' hk hpk hm cache he).trace_eq

/-- Partial signatures: the secret nonce and the secret key are secret. -/
theorem C62_musig_partial_sign {psig psig' secnonce secnonce' keypair keypair' : Option Bytes}
    (ho : SameShape psig psig') (hn : Leak.SameSecnonce secnonce secnonce')
    (hk : SameShape keypair keypair') (cache session : Option Bytes) :
    RevealsOnlyDeclassified (Leak.musigPartialSign psig secnonce keypair cache session)
      (Leak.musigPartialSign psig' secnonce' keypair' cache session) :=
  (Leak.agree_musigPartialSign ho hn hk cache session).trace_eq

/-! ## Concrete cases -/

theorem GenCtx_cfg_mk (c : CombCfg) (b : Bool) (s : Fn) (o : Ge Fp) (f : Fp) :
    (GenCtxOf.mk c b s o f).cfg = c := rfl

theorem genBlindReset_cfg (g : GenCtx) : (genBlindReset g).cfg = g.cfg := by
  unfold genBlindReset
  rw [GenCtx_cfg_mk]

theorem genBlindApply_cfg (g : GenCtx) (a : Fp) (b : Fn) : (genBlindApply g a b).cfg = g.cfg := by
  unfold genBlindApply
  rw [GenCtx_cfg_mk]

theorem ecmultGenBlind_cfg (g : GenCtx) (seed : Option Bytes) : (ecmultGenBlind g seed).cfg = g.cfg := by
  unfold ecmultGenBlind
  cases seed with
  | none => exact genBlindReset_cfg g
  | some s =>
    dsimp only
    rw [genBlindApply_cfg]

theorem contextRandomize_gen {ctx : Ctx} (h : ctx.gen.built = true) (seed : Option Bytes) :
    (contextRandomize ctx seed).val.gen = ecmultGenBlind ctx.gen seed := by
  unfold contextRandomize ecmultGenIsBuilt
  rw [h, if_neg (by decide), if_pos rfl]

theorem sameKind_randomize {ctx : Ctx} (h : LiveCtx ctx) (seed : Option Bytes) :
    SameKind ctx (contextRandomize ctx seed).val := by
  have h1 := h.ok.built
  have h2 := (h.randomize seed).ok.built
  refine ⟨?_, by rw [h1, h2]⟩
  rw [contextRandomize_gen h1, ecmultGenBlind_cfg]

/-- Two contexts of the same kind, the second one randomized, and two secret keys: `LooksSame` relates
executions with different secrets. -/
example : ∃ ctx ctx' : Ctx, LiveCtx ctx ∧ LiveCtx ctx' ∧
    ctx' = (contextRandomize ctx (some (List.replicate 32 7))).val ∧
    LooksSame (Leak.ecPubkeyCreate ctx (some (zeros 64)) (some (beBytes 32 1)))
      (Leak.ecPubkeyCreate ctx' (some (zeros 64)) (some (beBytes 32 2))) := by
  have h := LiveCtx.create (junk := contextStatic comb22) (flags := 1) (Or.inr (Or.inl rfl)) rfl
  exact ⟨_, _, h, h.randomize (some (List.replicate 32 7)), rfl,
    (C62_pubkey_create (sameKind_randomize h _) rfl
      (Leak.SameShape.mk (by rw [Hash.beBytes_length, Hash.beBytes_length]))).1⟩

/-- A nonce function that always writes 1. -/
def oneNonce : Leak.NonceFn := fun _ _ _ _ _ _ => pure (some (1, beBytes 32 1))

theorem oneNonce_sign {ctx : Ctx} (hctx : LiveCtx ctx) {d : ℕ} (h1 : 1 ≤ d) (hn : d < n) :
    ∃ sig, ecdsaSign 1 ctx (some []) (some (List.replicate 32 0)) (some (beBytes 32 d))
      (some (Leak.NonceFn.fn oneNonce)) none = some ⟨1, 0, some sig⟩ := by
  have hz : msgScalar (List.replicate 32 0) = 0 := by decide +kernel
  have hd : beNat (beBytes 32 d) = d := by
    rw [beNat_beBytes, Nat.mod_eq_of_lt (hn.trans (by decide +kernel))]
  refine C10_sign_succeeds hctx (by simp) (Hash.beBytes_length _ _) (by rw [hd]; exact h1)
    (by rw [hd]; exact hn) (Leak.NonceFn.fn oneNonce) none [] (j := 0) (by omega)
    (fun l hl => absurd hl (Nat.not_lt_zero l)) ⟨1, ?_⟩
  apply countingNonce_one
  rw [hd, hz, ecdsaS]
  have hd0 : (d : Fn) ≠ 0 := by
    intro h
    exact absurd (Nat.le_of_dvd h1 ((ZMod.natCast_eq_zero_iff d n).mp h)) (by omega)
  simpa using ⟨ecdsaR_one_ne_zero, hd0⟩

/-- Signing the message 0 with the secret keys 1 and 2 looks the same, also with differently blinded
contexts. -/
example : ∃ ctx ctx' : Ctx, LiveCtx ctx ∧ LiveCtx ctx' ∧
    LooksSame
      (Leak.ecdsaSign 1 ctx (some []) (some (List.replicate 32 0)) (some (beBytes 32 1)) (some oneNonce) none)
      (Leak.ecdsaSign 1 ctx' (some []) (some (List.replicate 32 0)) (some (beBytes 32 2)) (some oneNonce)
        none) := by
  have h := LiveCtx.create (junk := contextStatic comb22) (flags := 1) (Or.inr (Or.inl rfl)) rfl
  have h' := h.randomize (some (List.replicate 32 7))
  obtain ⟨s1, e1⟩ := oneNonce_sign h (d := 1) (by decide) (by decide +kernel)
  obtain ⟨s2, e2⟩ := oneNonce_sign h' (d := 2) (by decide) (by decide +kernel)
  refine ⟨_, _, h, h', C62_ecdsa_first_nonce h h' (sameKind_randomize h _).1 rfl rfl
    (by rw [Hash.beBytes_length, Hash.beBytes_length]) rfl ?_ ?_ e1 e2 rfl rfl⟩
  · rintro g hg
    obtain rfl := Option.some.inj hg
    intro i msg msg' key key' algo algo' data data' attempt _ _ _ _
    exact ⟨rfl, rfl⟩
  · rintro g hg
    obtain rfl := Option.some.inj hg
    intro i m k a d c
    rfl

/-- Schnorr signing with two keypairs that differ in the secret key only, and a nonce function that always
writes the same number. -/
example (g : GenCtx) (m m' b : Bytes) {k k' : Bytes} (h : (keypairLoad k).2.2 = true)
    (h' : (keypairLoad k').2.2 = true) (e : k.drop 32 = k'.drop 32) :
    declassified (Leak.schnorrsigSignCore g m k (fun _ _ _ _ _ => pure (1, b)) none).trace =
      declassified (Leak.schnorrsigSignCore g m' k' (fun _ _ _ _ _ => pure (1, b)) none).trace :=
  Leak.schnorrsigSignCore_const g m m' b none none h h' e

/-- `LooksSame` is not always true: an early exit on a secret is seen, and so is a secret argument of a
variable-time function. -/
example : ¬ LooksSame (Leak.branch true) (Leak.branch false) := by
  intro h; cases h

example (p : Ge Fp) : ¬ LooksSame (Leak.ecPubkeyTweakAddHelper p (List.replicate 32 0))
    (Leak.ecPubkeyTweakAddHelper p (List.replicate 32 1)) := by
  have h0 : scSetB32 (List.replicate 32 0) = (0, false) := by decide +kernel
  have h1 : (scSetB32 (List.replicate 32 1)).2 = false := by decide +kernel
  have h2 : (scSetB32 (List.replicate 32 1)).1.val ≠ 0 := by decide +kernel
  intro h
  unfold LooksSame Leak.ecPubkeyTweakAddHelper at h
  dsimp only at h
  rw [h0, h1] at h
  have h3 : geNats p ++ [ZMod.val (0 : Fn)] = geNats p ++ [(scSetB32 (List.replicate 32 1)).1.val] :=
    Leak.Ev.vartime.inj (List.cons.inj (List.cons.inj h).2).1
  exact h2 ((List.cons.inj (List.append_cancel_left h3)).1.symm.trans ZMod.val_zero)

end Secp
