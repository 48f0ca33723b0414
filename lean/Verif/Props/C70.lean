import Verif.Proof.LimbMusig
import Verif.Props.C31
import Verif.Props.C38Musig
import Verif.Props.C69

/-!
# C70: MuSig on machine words, whichever field implementation is compiled in

As C69, for the functions of `include/secp256k1_musig.h`: for all inputs the functions over 52-bit limbs
(`Fe5`) and over 26-bit limbs (`Fe10`) return the same values, call the callbacks as often and write the same
bytes as those of the same names over the integers modulo `p`, about which the properties C29 to C35 are.
`secp256k1_musig_partial_sig_agg` and the functions that parse and serialize partial signatures handle no field elements.

A key aggregation cache is canonical if the two coordinates of the aggregate key stored in it are below `p`.
`C70_caches` says that all caches that the API writes are.
-/

namespace Secp
open Model Spec

seal keyObject beBytes keysHash compressed

attribute [local instance] safegcdInv safegcdInv32

noncomputable local instance memRep5' : MemRep Fe5 := (Fe5.memRep safegcdInv_ok).some
noncomputable local instance memRep10' : MemRep Fe10 := (Fe10.memRep safegcdInv32_ok).some

theorem canon_append {a b : Bytes} (ha : a.length = 64) (h : Canon a) : Canon (a ++ b) := by
  unfold Canon
  rw [List.take_append_of_le_length (by omega), List.drop_append_of_le_length (by omega),
    List.take_append_of_le_length (by rw [List.length_drop]; omega)]
  exact h

theorem canon_geToBytes (c : Ge Fp) : (geToBytes c).length = 64 ∧ Canon (geToBytes c) := by
  have h : geToBytes c = leBytes 32 c.x.val ++ leBytes 32 c.y.val := rfl
  rw [h]
  refine ⟨by rw [List.length_append, leBytes_length, leBytes_length], ?_, ?_⟩
  · rw [List.take_left' (leBytes_length _ _), leNat_leBytes, Nat.mod_eq_of_lt (lt_trans (ZMod.val_lt c.x) p_lt_256)]
    exact ZMod.val_lt c.x
  · rw [List.drop_left' (leBytes_length _ _), List.take_of_length_le (by rw [leBytes_length]), leNat_leBytes,
      Nat.mod_eq_of_lt (lt_trans (ZMod.val_lt c.y) p_lt_256)]
    exact ZMod.val_lt c.y

theorem canon_cacheSave (c : KeyaggCache) : Canon ((keyaggCacheSave c).drop 4) := by
  unfold keyaggCacheSave
  rw [List.append_assoc, List.append_assoc, List.append_assoc, List.append_assoc,
    List.drop_left' (show cacheMagic.length = 4 from rfl)]
  exact canon_append (canon_geToBytes _).1 (canon_geToBytes _).2

/-- The caches of key lists and tweaks are canonical, and so is any other cache that a call of
`secp256k1_musig_pubkey_agg` or of a tweaking function that returns 1 leaves behind, on either kind of limbs. -/
theorem C70_caches : (∀ (Ps : List Pt) (c : KeyaggCtx), Canon ((cacheObject Ps c).drop 4)) ∧
    (∀ agg cache pks, (Limb.musigPubkeyAgg Fe5 agg cache pks).ret = 1 →
      ∀ b ∈ (Limb.musigPubkeyAgg Fe5 agg cache pks).val.2, Canon (b.drop 4)) ∧
    (∀ agg cache pks, (Limb.musigPubkeyAgg Fe10 agg cache pks).ret = 1 →
      ∀ b ∈ (Limb.musigPubkeyAgg Fe10 agg cache pks).val.2, Canon (b.drop 4)) ∧
    (∀ out cache tweak, (Limb.musigEcTweakAdd Fe5 out cache tweak).ret = 1 →
      ∀ b ∈ (Limb.musigEcTweakAdd Fe5 out cache tweak).val.2, Canon (b.drop 4)) ∧
    (∀ out cache tweak, (Limb.musigEcTweakAdd Fe10 out cache tweak).ret = 1 →
      ∀ b ∈ (Limb.musigEcTweakAdd Fe10 out cache tweak).val.2, Canon (b.drop 4)) ∧
    (∀ out cache tweak, (∀ b ∈ cache, Canon (b.drop 4)) → (Limb.musigXonlyTweakAdd Fe5 out cache tweak).ret = 1 →
      ∀ b ∈ (Limb.musigXonlyTweakAdd Fe5 out cache tweak).val.2, Canon (b.drop 4)) ∧
    (∀ out cache tweak, (∀ b ∈ cache, Canon (b.drop 4)) → (Limb.musigXonlyTweakAdd Fe10 out cache tweak).ret = 1 →
      ∀ b ∈ (Limb.musigXonlyTweakAdd Fe10 out cache tweak).val.2, Canon (b.drop 4)) := by
  have hw : ∀ agg cache pks sec, (pubkeyAggWith agg cache pks sec).ret = 1 →
      ∀ b ∈ (pubkeyAggWith agg cache pks sec).val.2, Canon (b.drop 4) := by
    intro agg cache pks sec
    unfold pubkeyAggWith
    cases computePksHash pks with
    | none => intro h; exact absurd (show (0 : ℤ) = 1 from h) (by decide)
    | some hash =>
      dsimp only
      cases ecmultMultiVarNull none (pubkeyAggCallback pks hash sec) pks.length with
      | none => intro h; exact absurd (show (0 : ℤ) = 1 from h) (by decide)
      | some pkj =>
        intro _ b hb
        cases cache with
        | none => simp at hb
        | some old =>
          obtain rfl := Option.some.inj hb
          exact canon_cacheSave _
  have ha : ∀ agg cache pks, (musigPubkeyAgg agg cache pks).ret = 1 →
      ∀ b ∈ (musigPubkeyAgg agg cache pks).val.2, Canon (b.drop 4) := by
    intro agg cache pks
    unfold musigPubkeyAgg
    cases pks with
    | none => intro h; exact absurd (show (0 : ℤ) = 1 from h) (by decide)
    | some pks =>
      cases pks with
      | nil => intro h; exact absurd (show (0 : ℤ) = 1 from h) (by decide)
      | cons pk0 rest =>
        dsimp only
        cases findSecond pk0 rest with
        | none => exact hw _ _ _ _
        | some pk =>
          dsimp only
          split_ifs
          · intro h; exact absurd (show (0 : ℤ) = 1 from h) (by decide)
          · exact hw _ _ _ _
  have ht : ∀ out cache tweak x, (musigTweakAddInternal out cache tweak x).ret = 1 →
      ∀ b ∈ (musigTweakAddInternal out cache tweak x).val.2, Canon (b.drop 4) := by
    intro out cache tweak x
    unfold musigTweakAddInternal
    cases cache with
    | none => intro h; exact absurd (show (0 : ℤ) = 1 from h) (by decide)
    | some cache =>
      cases tweak with
      | none => intro h; exact absurd (show (0 : ℤ) = 1 from h) (by decide)
      | some tweak =>
        dsimp only
        cases keyaggCacheLoad cache with
        | none => intro h; exact absurd (show (0 : ℤ) = 1 from h) (by decide)
        | some c =>
          dsimp only
          split_ifs
          · intro h; exact absurd (show (0 : ℤ) = 1 from h) (by decide)
          · intro h; exact absurd (show (0 : ℤ) = 1 from h) (by decide)
          · intro _ b hb
            obtain rfl := Option.some.inj hb
            exact canon_cacheSave _
  refine ⟨fun Ps c => ?_, fun a c k => ?_, fun a c k => ?_, fun a c k => ?_, fun a c k => ?_, fun a c k hc => ?_,
    fun a c k hc => ?_⟩
  · unfold cacheObject
    rw [List.append_assoc, List.append_assoc, List.append_assoc, List.append_assoc,
      List.drop_left' (show ([0xf4, 0xad, 0xbb, 0xdf] : Bytes).length = 4 from rfl)]
    exact canon_append (keyObject_length _) (C69_objects.2.1 _)
  · rw [Limb.musigPubkeyAgg_eq]; exact ha _ _ _
  · rw [Limb.musigPubkeyAgg_eq]; exact ha _ _ _
  · rw [Limb.musigEcTweakAdd_eq]; exact ht _ _ _ _
  · rw [Limb.musigEcTweakAdd_eq]; exact ht _ _ _ _
  · rw [Limb.musigXonlyTweakAdd_eq _ _ hc]; exact ht _ _ _ _
  · rw [Limb.musigXonlyTweakAdd_eq _ _ hc]; exact ht _ _ _ _

theorem partialSigAgg_length {old sig session : Bytes} {sigs : List Bytes} (ho : old.length = 64)
    (h : musigPartialSigAgg (some old) (some session) (some sigs) = ⟨1, 0, some sig⟩) : sig.length = 64 := by
  have key : ∀ {a b : Bytes} {i : ℕ}, a.length = 64 → i + b.length ≤ 64 → (put a i b).length = 64 := by
    intro a b i ha hb
    rw [put, List.length_append, List.length_append, List.length_take, List.length_drop, ha]
    omega
  unfold musigPartialSigAgg at h
  dsimp only at h
  by_cases h1 : ¬ sigs.length > 0
  · rw [if_pos h1] at h
    exact absurd (show (0 : ℤ) = 1 from congrArg Out.ret h) (by decide)
  · rw [if_neg h1] at h
    cases h2 : sessionLoad session with
    | none => rw [h2] at h; exact absurd (show (0 : ℤ) = 1 from congrArg Out.ret h) (by decide)
    | some sess =>
      rw [h2] at h
      dsimp only at h
      cases h3 : partialSigSum sigs sess.sPart with
      | none => rw [h3] at h; exact absurd (show (0 : ℤ) = 1 from congrArg Out.ret h) (by decide)
      | some s =>
        rw [h3] at h
        obtain rfl := Option.some.inj (congrArg Out.val h)
        have l1 : (scGetB32 s).length = 32 := beBytes_len _ _
        exact key (key ho (by rw [l1])) (by rw [List.length_take]; omega)

/-! ### Keys -/

theorem C70_pubkey_agg (aggPk cache : Option Bytes) (pubkeys : Option (List Bytes)) :
    Limb.musigPubkeyAgg Fe5 aggPk cache pubkeys = musigPubkeyAgg aggPk cache pubkeys ∧
    Limb.musigPubkeyAgg Fe10 aggPk cache pubkeys = musigPubkeyAgg aggPk cache pubkeys :=
  ⟨Limb.musigPubkeyAgg_eq _ _ _, Limb.musigPubkeyAgg_eq _ _ _⟩

theorem C70_pubkey_get (aggPk cache : Option Bytes) :
    Limb.musigPubkeyGet Fe5 aggPk cache = musigPubkeyGet aggPk cache ∧
    Limb.musigPubkeyGet Fe10 aggPk cache = musigPubkeyGet aggPk cache :=
  ⟨Limb.musigPubkeyGet_eq _ _, Limb.musigPubkeyGet_eq _ _⟩

theorem C70_ec_tweak_add (outputPubkey cache tweak32 : Option Bytes) :
    Limb.musigEcTweakAdd Fe5 outputPubkey cache tweak32 = musigEcTweakAdd outputPubkey cache tweak32 ∧
    Limb.musigEcTweakAdd Fe10 outputPubkey cache tweak32 = musigEcTweakAdd outputPubkey cache tweak32 :=
  ⟨Limb.musigEcTweakAdd_eq _ _ _, Limb.musigEcTweakAdd_eq _ _ _⟩

theorem C70_xonly_tweak_add (outputPubkey : Option Bytes) {cache : Option Bytes} (tweak32 : Option Bytes)
    (hc : ∀ b ∈ cache, Canon (b.drop 4)) :
    Limb.musigXonlyTweakAdd Fe5 outputPubkey cache tweak32 = musigXonlyTweakAdd outputPubkey cache tweak32 ∧
    Limb.musigXonlyTweakAdd Fe10 outputPubkey cache tweak32 = musigXonlyTweakAdd outputPubkey cache tweak32 :=
  ⟨Limb.musigXonlyTweakAdd_eq _ _ hc, Limb.musigXonlyTweakAdd_eq _ _ hc⟩

/-! ### Nonces -/

theorem C70_pubnonce_parse (nonce in66 : Option Bytes) :
    Limb.musigPubnonceParse Fe5 nonce in66 = musigPubnonceParse nonce in66 ∧
    Limb.musigPubnonceParse Fe10 nonce in66 = musigPubnonceParse nonce in66 :=
  ⟨Limb.musigPubnonceParse_eq _ _, Limb.musigPubnonceParse_eq _ _⟩

theorem C70_pubnonce_serialize (out66 nonce : Option Bytes) :
    Limb.musigPubnonceSerialize Fe5 out66 nonce = musigPubnonceSerialize out66 nonce ∧
    Limb.musigPubnonceSerialize Fe10 out66 nonce = musigPubnonceSerialize out66 nonce :=
  ⟨Limb.musigPubnonceSerialize_eq _ _, Limb.musigPubnonceSerialize_eq _ _⟩

theorem C70_aggnonce_parse (nonce in66 : Option Bytes) :
    Limb.musigAggnonceParse Fe5 nonce in66 = musigAggnonceParse nonce in66 ∧
    Limb.musigAggnonceParse Fe10 nonce in66 = musigAggnonceParse nonce in66 :=
  ⟨Limb.musigAggnonceParse_eq _ _, Limb.musigAggnonceParse_eq _ _⟩

theorem C70_aggnonce_serialize (out66 nonce : Option Bytes) :
    Limb.musigAggnonceSerialize Fe5 out66 nonce = musigAggnonceSerialize out66 nonce ∧
    Limb.musigAggnonceSerialize Fe10 out66 nonce = musigAggnonceSerialize out66 nonce :=
  ⟨Limb.musigAggnonceSerialize_eq _ _, Limb.musigAggnonceSerialize_eq _ _⟩

/-- Nonce generation, in any contexts that a program can hold. -/
theorem C70_nonce_gen {c5 : Limb.Ctx Fe5} {c10 : Limb.Ctx Fe10} {C : Ctx} (h5 : Limb.LiveCtx c5)
    (h10 : Limb.LiveCtx c10) (h : LiveCtx C) (secnonce pubnonce rand seckey pubkey keypair msg : Option Bytes)
    {cache : Option Bytes} (hc : ∀ b ∈ cache, Canon (b.drop 4)) (extra : Option Bytes) (cnt : UInt64) :
    Limb.musigNonceGen c5 secnonce pubnonce rand seckey pubkey msg cache extra =
      musigNonceGen C secnonce pubnonce rand seckey pubkey msg cache extra ∧
    Limb.musigNonceGen c10 secnonce pubnonce rand seckey pubkey msg cache extra =
      musigNonceGen C secnonce pubnonce rand seckey pubkey msg cache extra ∧
    Limb.musigNonceGenCounter c5 secnonce pubnonce cnt keypair msg cache extra =
      musigNonceGenCounter C secnonce pubnonce cnt keypair msg cache extra ∧
    Limb.musigNonceGenCounter c10 secnonce pubnonce cnt keypair msg cache extra =
      musigNonceGenCounter C secnonce pubnonce cnt keypair msg cache extra := by
  obtain ⟨X, hX, l⟩ := Limb.live_limb h5
  obtain ⟨Y, hY, l'⟩ := Limb.live_limb h10
  have e := C38_musig_nonce_gen_same hX h secnonce pubnonce rand seckey pubkey keypair msg cache extra cnt
  have e' := C38_musig_nonce_gen_same hY h secnonce pubnonce rand seckey pubkey keypair msg cache extra cnt
  exact ⟨(Limb.musigNonceGen_eq l _ _ _ _ _ _ hc _).trans e.1, (Limb.musigNonceGen_eq l' _ _ _ _ _ _ hc _).trans e'.1,
    (Limb.musigNonceGenCounter_eq l _ _ _ _ _ hc _).trans e.2,
    (Limb.musigNonceGenCounter_eq l' _ _ _ _ _ hc _).trans e'.2⟩

theorem C70_nonce_agg (aggnonce : Option Bytes) (pubnonces : Option (List Bytes)) :
    Limb.musigNonceAgg Fe5 aggnonce pubnonces = musigNonceAgg aggnonce pubnonces ∧
    Limb.musigNonceAgg Fe10 aggnonce pubnonces = musigNonceAgg aggnonce pubnonces :=
  ⟨Limb.musigNonceAgg_eq _ _, Limb.musigNonceAgg_eq _ _⟩

theorem C70_nonce_process (session aggnonce msg32 : Option Bytes) {cache : Option Bytes}
    (hc : ∀ b ∈ cache, Canon (b.drop 4)) :
    Limb.musigNonceProcess Fe5 session aggnonce msg32 cache = musigNonceProcess session aggnonce msg32 cache ∧
    Limb.musigNonceProcess Fe10 session aggnonce msg32 cache = musigNonceProcess session aggnonce msg32 cache :=
  ⟨Limb.musigNonceProcess_eq _ _ _ hc, Limb.musigNonceProcess_eq _ _ _ hc⟩

/-! ### Partial signatures -/

theorem C70_partial_sign (partialSig secnonce : Option Bytes) {keypair cache : Option Bytes}
    (hk : ∀ b ∈ keypair, Canon (b.drop 32)) (hc : ∀ b ∈ cache, Canon (b.drop 4)) (session : Option Bytes) :
    Limb.musigPartialSign Fe5 partialSig secnonce keypair cache session =
      musigPartialSign partialSig secnonce keypair cache session ∧
    Limb.musigPartialSign Fe10 partialSig secnonce keypair cache session =
      musigPartialSign partialSig secnonce keypair cache session :=
  ⟨Limb.musigPartialSign_eq _ _ hk hc _, Limb.musigPartialSign_eq _ _ hk hc _⟩

theorem C70_partial_sig_verify (partialSig pubnonce pubkey : Option Bytes) {cache : Option Bytes}
    (hc : ∀ b ∈ cache, Canon (b.drop 4)) (session : Option Bytes) :
    Limb.musigPartialSigVerify Fe5 partialSig pubnonce pubkey cache session =
      musigPartialSigVerify partialSig pubnonce pubkey cache session ∧
    Limb.musigPartialSigVerify Fe10 partialSig pubnonce pubkey cache session =
      musigPartialSigVerify partialSig pubnonce pubkey cache session :=
  ⟨Limb.musigPartialSigVerify_eq _ _ _ hc _, Limb.musigPartialSigVerify_eq _ _ _ hc _⟩

/-! ### What this says about the main properties

The statements of C29, C30 and C31, for the functions over machine words. -/

/-- C29 on machine words: the aggregate key is that of BIP-327. -/
theorem C70_aggregate {Ps : List Pt} (h0 : Ps ≠ []) (hP : ∀ P ∈ Ps, P ≠ 0) (hQ : aggPoint Ps ≠ 0)
    (aggPk cache : Option Bytes) :
    Limb.musigPubkeyAgg Fe5 aggPk cache (some (Ps.map keyObject)) =
      ⟨1, 0, (aggPk.map fun _ => keyObject (evenY (aggPoint Ps)),
        cache.map fun _ => cacheObject Ps (keyaggInit Ps))⟩ ∧
    Limb.musigPubkeyAgg Fe10 aggPk cache (some (Ps.map keyObject)) =
      ⟨1, 0, (aggPk.map fun _ => keyObject (evenY (aggPoint Ps)),
        cache.map fun _ => cacheObject Ps (keyaggInit Ps))⟩ := by
  obtain ⟨e, e'⟩ := C70_pubkey_agg aggPk cache (some (Ps.map keyObject))
  rw [e, e']
  exact ⟨C29_aggregate h0 hP hQ aggPk cache, C29_aggregate h0 hP hQ aggPk cache⟩

/-- C30 on machine words: partial verification accepts exactly the right values. -/
theorem C70_verify_iff {Ps : List Pt} {c : KeyaggCtx} (hc : KeyaggOk c) {P R₁ R₂ : Pt} (hP : P ≠ 0)
    (h1 : R₁ ≠ 0) (h2 : R₂ ≠ 0) (par : UInt8) {r : Bytes} (hr : r.length = 32) (b e s s' : Fn) :
    ((Limb.musigPartialSigVerify Fe5 (some (partialSigObject s')) (some (pubnonceObject R₁ R₂))
      (some (keyObject P)) (some (cacheObject Ps c)) (some (sessionObject par r b e s))).ret = 1 ↔
      s'.val • G = (paritySign par).val • (R₁ + b.val • R₂) +
        (e * keyCoef Ps P * (signY c.Q * c.gacc)).val • P) ∧
    ((Limb.musigPartialSigVerify Fe10 (some (partialSigObject s')) (some (pubnonceObject R₁ R₂))
      (some (keyObject P)) (some (cacheObject Ps c)) (some (sessionObject par r b e s))).ret = 1 ↔
      s'.val • G = (paritySign par).val • (R₁ + b.val • R₂) +
        (e * keyCoef Ps P * (signY c.Q * c.gacc)).val • P) := by
  obtain ⟨q, q'⟩ := C70_partial_sig_verify (some (partialSigObject s')) (some (pubnonceObject R₁ R₂))
    (some (keyObject P)) (cache := some (cacheObject Ps c)) (by simpa using C70_caches.1 Ps c)
    (some (sessionObject par r b e s))
  rw [q, q']
  have h := (C30_verify_iff (Ps := Ps) hc hP h1 h2 par hr b e s s').1
  exact ⟨h, h⟩

/-- C31 on machine words: a whole signing session, in which the signers, the aggregator and the verifier
may run either build. -/
theorem C70_flow {ss : List Signer} (h0 : ss ≠ []) (hs : ∀ s ∈ ss, s.d ≠ 0 ∧ s.k₁ ≠ 0 ∧ s.k₂ ≠ 0)
    {ts : List (Bool × Bytes)} {c : KeyaggCtx} (hQ : aggPoint (ss.map Signer.key) ≠ 0)
    (ht : tweakSeq (ss.map Signer.key) ts = some c) {m : Bytes} (hm : m.length = 32)
    (old₁ old₂ old₃ : Bytes) {old₄ : Bytes} (ho : old₄.length = 64) :
    ∃ aggnonce session sigs sig,
      (Limb.musigNonceAgg Fe5 (some old₁) (some ((ss.map Signer.nonce).map fun R => pubnonceObject R.1 R.2)) =
        ⟨1, 0, some aggnonce⟩ ∧
       Limb.musigNonceAgg Fe10 (some old₁) (some ((ss.map Signer.nonce).map fun R => pubnonceObject R.1 R.2)) =
        ⟨1, 0, some aggnonce⟩) ∧
      (Limb.musigNonceProcess Fe5 (some old₂) (some aggnonce) (some m)
          (some (cacheObject (ss.map Signer.key) c)) = ⟨1, 0, some session⟩ ∧
       Limb.musigNonceProcess Fe10 (some old₂) (some aggnonce) (some m)
          (some (cacheObject (ss.map Signer.key) c)) = ⟨1, 0, some session⟩) ∧
      List.Forall₂ (fun (s : Signer) sig =>
        Limb.musigPartialSign Fe5 (some old₃) (some s.secnonce) (some (keypairObject s.d))
          (some (cacheObject (ss.map Signer.key) c)) (some session) =
          ⟨1, 0, (some sig, some (List.replicate 132 0))⟩ ∧
        Limb.musigPartialSign Fe10 (some old₃) (some s.secnonce) (some (keypairObject s.d))
          (some (cacheObject (ss.map Signer.key) c)) (some session) =
          ⟨1, 0, (some sig, some (List.replicate 132 0))⟩) ss sigs ∧
      musigPartialSigAgg (some old₄) (some session) (some sigs) = ⟨1, 0, some sig⟩ ∧
      (((Limb.schnorrsigVerify Fe5 (some sig) (some m) 32 (some (keyObject (evenY c.Q)))).ret = 1 ↔
        ((ss.map Signer.nonce).map Prod.fst).sum +
          (nonceCoef ((ss.map Signer.nonce).map Prod.fst).sum ((ss.map Signer.nonce).map Prod.snd).sum
            c.Q m).val • ((ss.map Signer.nonce).map Prod.snd).sum ≠ 0) ∧
       ((Limb.schnorrsigVerify Fe10 (some sig) (some m) 32 (some (keyObject (evenY c.Q)))).ret = 1 ↔
        ((ss.map Signer.nonce).map Prod.fst).sum +
          (nonceCoef ((ss.map Signer.nonce).map Prod.fst).sum ((ss.map Signer.nonce).map Prod.snd).sum
            c.Q m).val • ((ss.map Signer.nonce).map Prod.snd).sum ≠ 0)) := by
  obtain ⟨aggnonce, session, sigs, sig, e1, e2, e3, e4, e5⟩ := C31_flow h0 hs hQ ht hm old₁ old₂ old₃ ho
  have hc : ∀ b ∈ some (cacheObject (ss.map Signer.key) c), Canon (b.drop 4) := by
    simpa using C70_caches.1 (ss.map Signer.key) c
  have hl : sig.length = 64 := partialSigAgg_length ho e4
  obtain ⟨a, a'⟩ := C70_nonce_agg (some old₁) (some ((ss.map Signer.nonce).map fun R => pubnonceObject R.1 R.2))
  obtain ⟨p, p'⟩ := C70_nonce_process (some old₂) (some aggnonce) (some m) hc
  obtain ⟨v, v'⟩ := C69_schnorrsig_verify (sig64 := some sig) (by simpa using hl) (some m) 32
    (pubkey := some (keyObject (evenY c.Q))) (by simpa using C69_objects.2.1 (evenY c.Q))
  refine ⟨aggnonce, session, sigs, sig, ⟨a.trans e1, a'.trans e1⟩, ⟨p.trans e2, p'.trans e2⟩,
    e3.imp fun s sg h => ?_, e4, ?_, ?_⟩
  · obtain ⟨q, q'⟩ := C70_partial_sign (some old₃) (some s.secnonce) (keypair := some (keypairObject s.d))
      (by simpa using C69_objects.2.2.1 s.d) hc (some session)
    exact ⟨q.trans h, q'.trans h⟩
  · rw [v]; exact e5
  · rw [v']; exact e5

/-! ### The hypotheses can be met -/

/-- The three keys `G`, `-G`, `G` (see C29): both builds aggregate them, into the same canonical cache. -/
example : (Limb.musigPubkeyAgg Fe5 (some []) (some []) (some ([G, -G, G].map keyObject))).ret = 1 ∧
    Limb.musigPubkeyAgg Fe5 (some []) (some []) (some ([G, -G, G].map keyObject)) =
      Limb.musigPubkeyAgg Fe10 (some []) (some []) (some ([G, -G, G].map keyObject)) ∧
    Canon ((cacheObject [G, -G, G] (keyaggInit [G, -G, G])).drop 4) := by
  have hP : ∀ P ∈ [G, -G, G], P ≠ 0 := by
    intro P hP
    simp only [List.mem_cons, List.not_mem_nil, or_false] at hP
    rcases hP with h | h | h <;> rw [h]
    · exact G_ne_zero
    · exact neg_ne_zero.2 G_ne_zero
    · exact G_ne_zero
  obtain ⟨e, e'⟩ := C70_aggregate (by simp) hP aggPoint_example (some []) (some [])
  rw [e, e']
  exact ⟨rfl, rfl, C70_caches.1 _ _⟩

end Secp
