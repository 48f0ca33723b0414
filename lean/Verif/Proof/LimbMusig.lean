import Verif.Proof.LimbKeyagg

/-!
# The MuSig sessions compute the same on limbs as on values
-/

namespace Secp.Model
open Secp FeOps LimbRep
open Secp.Spec (beNat beBytes leNat leBytes)

variable {α : Type} [FeOps α] [FeMem α] [LimbRep α] [MemRep α]

namespace Limb

variable {c d : Ge α} {C D : Ge Fp} {a b : Gej α} {A B : Gej Fp}

variable {x : Limb.Ctx α} {X : Model.Ctx}

theorem geGarbage_limb : GeLimb (geGarbage : Ge α) geGarbage :=
  ⟨(Rep.int 0).mono (by omega), (Rep.int 0).mono (by omega), rfl⟩

/-! ### Nonces in memory -/

theorem musigGeSerializeExt_limb (h : GeLimb c C) : Limb.musigGeSerializeExt c = Model.musigGeSerializeExt C := by
  unfold Limb.musigGeSerializeExt Model.musigGeSerializeExt
  rw [h.inf, eckeyPubkeySerialize_limb h]

variable (α) in
theorem musigGeParseExt_limb (b : List UInt8) :
    Option.Rel GeLimb (Limb.musigGeParseExt α b) (Model.musigGeParseExt b) := by
  obtain ⟨e, l⟩ := eckeyPubkeyParse_limb (α := α) (b.take 33)
  unfold Limb.musigGeParseExt Model.musigGeParseExt
  by_cases h : memcmpVar b (zeros 33) 33 = 0
  · rw [if_pos h, if_pos h]
    exact .some GeLimb.infinity
  · rw [if_neg h, if_neg h]
    dsimp only
    rw [e]
    by_cases h2 : (!(Model.eckeyPubkeyParse (b.take 33)).2) = true
    · rw [if_pos h2, if_pos h2]
      exact .none
    · rw [if_neg h2, if_neg h2]
      exact .some l

theorem secnonceSave_limb (k0 k1 : Fn) (h : GeLimb c C) : Limb.secnonceSave k0 k1 c = Model.secnonceSave k0 k1 C := by
  unfold Limb.secnonceSave Model.secnonceSave
  rw [geToBytes_limb h]

theorem pubnonceSave_limb (h : GeLimb c C) (g : GeLimb d D) : Limb.pubnonceSave c d = Model.pubnonceSave C D := by
  unfold Limb.pubnonceSave Model.pubnonceSave
  rw [geToBytes_limb h, geToBytes_limb g]

theorem aggnonceSave_limb (h : GeLimb c C) (g : GeLimb d D) : Limb.aggnonceSave c d = Model.aggnonceSave C D := by
  unfold Limb.aggnonceSave Model.aggnonceSave
  rw [geToBytesExt_limb h, geToBytesExt_limb g]

/-- The limbs of two points. -/
def PairLimb (q : Ge α × Ge α) (Q : Ge Fp × Ge Fp) : Prop := GeLimb q.1 Q.1 ∧ GeLimb q.2 Q.2

variable (α) in
theorem pubnonceLoad_limb (b : List UInt8) :
    Option.Rel PairLimb (Limb.pubnonceLoad α b) (Model.pubnonceLoad b) := by
  unfold Limb.pubnonceLoad Model.pubnonceLoad
  by_cases h : memcmpVar b pubnonceMagic 4 ≠ 0
  · rw [if_pos h, if_pos h]
    exact .none
  · rw [if_neg h, if_neg h]
    exact .some ⟨geFromBytes_limb α _, geFromBytes_limb α _⟩

variable (α) in
theorem aggnonceLoad_limb (b : List UInt8) :
    Option.Rel PairLimb (Limb.aggnonceLoad α b) (Model.aggnonceLoad b) := by
  unfold Limb.aggnonceLoad Model.aggnonceLoad
  by_cases h : memcmpVar b aggnonceMagic 4 ≠ 0
  · rw [if_pos h, if_pos h]
    exact .none
  · rw [if_neg h, if_neg h]
    exact .some ⟨geFromBytesExt_limb α _, geFromBytesExt_limb α _⟩

/-! ### Nonces on the wire -/

theorem musigPubnonceParse_eq (nonce in66 : Option (List UInt8)) :
    Limb.musigPubnonceParse α nonce in66 = Model.musigPubnonceParse nonce in66 := by
  unfold Limb.musigPubnonceParse Model.musigPubnonceParse
  cases nonce with
  | none => rfl
  | some old =>
    cases in66 with
    | none => rfl
    | some b =>
      obtain ⟨e1, l1⟩ := eckeyPubkeyParse_limb (α := α) (b.take 33)
      obtain ⟨e2, l2⟩ := eckeyPubkeyParse_limb (α := α) ((b.drop 33).take 33)
      dsimp only
      rw [e1, e2, pubnonceSave_limb l1 l2]
      rfl

theorem musigPubnonceSerialize_eq (out nonce : Option (List UInt8)) :
    Limb.musigPubnonceSerialize α out nonce = Model.musigPubnonceSerialize out nonce := by
  unfold Limb.musigPubnonceSerialize Model.musigPubnonceSerialize
  cases out with
  | none => rfl
  | some out =>
    cases nonce with
    | none => rfl
    | some nonce =>
      have r := pubnonceLoad_limb α nonce
      dsimp only
      revert r
      generalize Limb.pubnonceLoad α nonce = u
      generalize Model.pubnonceLoad nonce = v
      intro r
      cases r with
      | none => rfl
      | @some q Q r =>
        obtain ⟨q0, q1⟩ := q
        obtain ⟨Q0, Q1⟩ := Q
        dsimp only
        rw [eckeyPubkeySerialize_limb r.1, eckeyPubkeySerialize_limb r.2]

theorem musigAggnonceParse_eq (nonce in66 : Option (List UInt8)) :
    Limb.musigAggnonceParse α nonce in66 = Model.musigAggnonceParse nonce in66 := by
  unfold Limb.musigAggnonceParse Model.musigAggnonceParse
  cases nonce with
  | none => rfl
  | some old =>
    cases in66 with
    | none => rfl
    | some b =>
      have r1 := musigGeParseExt_limb α b
      have r2 := musigGeParseExt_limb α (b.drop 33)
      dsimp only
      revert r1 r2
      generalize Limb.musigGeParseExt α b = u
      generalize Model.musigGeParseExt b = v
      generalize Limb.musigGeParseExt α (b.drop 33) = u'
      generalize Model.musigGeParseExt (b.drop 33) = v'
      intro r1 r2
      cases r1 with
      | none => rfl
      | some r1 =>
        cases r2 with
        | none => rfl
        | some r2 =>
          dsimp only
          rw [aggnonceSave_limb r1 r2]

theorem musigAggnonceSerialize_eq (out nonce : Option (List UInt8)) :
    Limb.musigAggnonceSerialize α out nonce = Model.musigAggnonceSerialize out nonce := by
  unfold Limb.musigAggnonceSerialize Model.musigAggnonceSerialize
  cases out with
  | none => rfl
  | some out =>
    cases nonce with
    | none => rfl
    | some nonce =>
      have r := aggnonceLoad_limb α nonce
      dsimp only
      revert r
      generalize Limb.aggnonceLoad α nonce = u
      generalize Model.aggnonceLoad nonce = v
      intro r
      cases r with
      | none => rfl
      | @some q Q r =>
        obtain ⟨q0, q1⟩ := q
        obtain ⟨Q0, Q1⟩ := Q
        dsimp only
        rw [musigGeSerializeExt_limb r.1, musigGeSerializeExt_limb r.2]

/-! ### Nonce generation -/

theorem pair_limb {l : List (Ge α)} {L : List (Ge Fp)} (h : List.Forall₂ GeLimb l L) (i : ℕ) :
    GeLimb (l.getD i geGarbage) (L.getD i geGarbage) := by
  induction h generalizing i with
  | nil => exact geGarbage_limb
  | cons h _ ih =>
    cases i with
    | zero => exact h
    | succ i => exact ih i

theorem musigNonceGenCore_eq (h : CtxLimb x X) (inp : List UInt8) (seckey msg : Option (List UInt8))
    (l : GeLimb c C) (agg extra : Option (List UInt8)) (ret : Bool) :
    Limb.musigNonceGenCore x.gen inp seckey msg c agg extra ret =
      Model.musigNonceGenCore X.gen inp seckey msg C agg extra ret := by
  unfold Limb.musigNonceGenCore Model.musigNonceGenCore
  dsimp only
  rw [eckeyPubkeySerialize_limb l]
  generalize nonceFunctionMusig inp msg seckey _ agg extra = k
  have r : List.Forall₂ GeLimb (geSetAllGej [ecmultGen x.gen k.1, ecmultGen x.gen k.2])
      (geSetAllGej [ecmultGen X.gen k.1, ecmultGen X.gen k.2]) :=
    geSetAllGej_limb MemRep.inv (.cons (h.mulGen k.1) (.cons (h.mulGen k.2) .nil))
  rw [secnonceSave_limb _ _ l, pubnonceSave_limb (pair_limb r 0) (pair_limb r 1)]

theorem nonceGenAggPk_eq {cache : Option (List UInt8)} (hc : ∀ b ∈ cache, Canon (b.drop 4)) :
    Limb.nonceGenAggPk α cache = Model.nonceGenAggPk cache := by
  cases cache with
  | none => rfl
  | some cache =>
    unfold Limb.nonceGenAggPk Model.nonceGenAggPk
    dsimp only
    have r := keyaggCacheLoad_limb α cache
    revert r
    generalize Limb.keyaggCacheLoad α cache = u
    generalize Model.keyaggCacheLoad cache = v
    intro r
    cases r with
    | none => rfl
    | @some q Q r =>
      have n := r.2 (hc cache rfl)
      rw [Option.map_some, Option.map_some, show Limb.feGetB32 q.pk.x = _ from MemRep.getB32 n.x]

theorem musigNonceGenInternal_eq (h : CtxLimb x X) (secnonce : List UInt8) (pubnonce : Option (List UInt8))
    (inp : List UInt8) (seckey pubkey msg : Option (List UInt8)) {cache : Option (List UInt8)}
    (hc : ∀ b ∈ cache, Canon (b.drop 4)) (extra : Option (List UInt8)) :
    Limb.musigNonceGenInternal x secnonce pubnonce inp seckey pubkey msg cache extra =
      Model.musigNonceGenInternal X secnonce pubnonce inp seckey pubkey msg cache extra := by
  unfold Limb.musigNonceGenInternal Model.musigNonceGenInternal
  cases pubnonce with
  | none => rfl
  | some _ =>
    cases pubkey with
    | none => rfl
    | some pubkey =>
      obtain ⟨e, l⟩ := pubkeyLoad_limb α pubkey
      dsimp only
      rw [h.built, nonceGenAggPk_eq hc, e]
      cases Model.nonceGenAggPk cache with
      | none => rfl
      | some agg =>
        dsimp only
        rw [musigNonceGenCore_eq h _ _ _ l]

theorem musigNonceGen_eq (h : CtxLimb x X) (secnonce pubnonce rand seckey pubkey msg : Option (List UInt8))
    {cache : Option (List UInt8)} (hc : ∀ b ∈ cache, Canon (b.drop 4)) (extra : Option (List UInt8)) :
    Limb.musigNonceGen x secnonce pubnonce rand seckey pubkey msg cache extra =
      Model.musigNonceGen X secnonce pubnonce rand seckey pubkey msg cache extra := by
  unfold Limb.musigNonceGen Model.musigNonceGen
  cases secnonce with
  | none => rfl
  | some _ =>
    cases rand with
    | none => rfl
    | some rand =>
      dsimp only
      rw [musigNonceGenInternal_eq h _ _ _ _ _ _ hc]

theorem musigNonceGenCounter_eq (h : CtxLimb x X) (secnonce pubnonce : Option (List UInt8)) (cnt : UInt64)
    (keypair msg : Option (List UInt8)) {cache : Option (List UInt8)} (hc : ∀ b ∈ cache, Canon (b.drop 4))
    (extra : Option (List UInt8)) :
    Limb.musigNonceGenCounter x secnonce pubnonce cnt keypair msg cache extra =
      Model.musigNonceGenCounter X secnonce pubnonce cnt keypair msg cache extra := by
  unfold Limb.musigNonceGenCounter Model.musigNonceGenCounter
  cases secnonce with
  | none => rfl
  | some _ =>
    cases keypair with
    | none => rfl
    | some keypair =>
      dsimp only
      rw [musigNonceGenInternal_eq h _ _ _ _ _ _ hc]

/-! ### Nonce aggregation -/

theorem sumPubnoncesLoop_limb (l : List (List UInt8)) (h : GejLimb a A) (g : GejLimb b B) :
    Option.Rel (fun q Q => GejLimb q.1 Q.1 ∧ GejLimb q.2 Q.2) (Limb.sumPubnoncesLoop α l a b)
      (Model.sumPubnoncesLoop l A B) := by
  induction l generalizing a A b B with
  | nil => exact .some ⟨h, g⟩
  | cons nonce rest ih =>
    rw [Limb.sumPubnoncesLoop, Model.sumPubnoncesLoop]
    have r := pubnonceLoad_limb α nonce
    revert r
    generalize Limb.pubnonceLoad α nonce = u
    generalize Model.pubnonceLoad nonce = v
    intro r
    cases r with
    | none => exact .none
    | @some q Q r =>
      obtain ⟨q0, q1⟩ := q
      obtain ⟨Q0, Q1⟩ := Q
      exact ih (h.addGeVar r.1).1 (g.addGeVar r.2).1

theorem musigNonceAgg_eq (agg : Option (List UInt8)) (nonces : Option (List (List UInt8))) :
    Limb.musigNonceAgg α agg nonces = Model.musigNonceAgg agg nonces := by
  unfold Limb.musigNonceAgg Model.musigNonceAgg
  cases agg with
  | none => rfl
  | some old =>
    cases nonces with
    | none => rfl
    | some nonces =>
      dsimp only
      by_cases hn : ¬ nonces.length > 0
      · rw [if_pos hn, if_pos hn]
      · rw [if_neg hn, if_neg hn]
        unfold Limb.sumPubnonces Model.sumPubnonces
        have r := sumPubnoncesLoop_limb (α := α) nonces GejLimb.infinity GejLimb.infinity
        revert r
        generalize Limb.sumPubnoncesLoop α nonces gejInfinity gejInfinity = u
        generalize Model.sumPubnoncesLoop nonces gejInfinity gejInfinity = v
        intro r
        cases r with
        | none => rfl
        | @some q Q r =>
          obtain ⟨q0, q1⟩ := q
          obtain ⟨Q0, Q1⟩ := Q
          have s : List.Forall₂ GeLimb (geSetAllGejVar [q0, q1]) (geSetAllGejVar [Q0, Q1]) :=
            geSetAllGejVar_limb MemRep.inv (.cons r.1 (.cons r.2 .nil))
          dsimp only
          rw [aggnonceSave_limb (pair_limb s 0) (pair_limb s 1)]

/-! ### Sessions -/

theorem computeNoncehash_limb (h : GeLimb c C) (g : GeLimb d D) (agg msg : List UInt8) :
    Limb.computeNoncehash c d agg msg = Model.computeNoncehash C D agg msg := by
  unfold Limb.computeNoncehash Model.computeNoncehash
  rw [musigGeSerializeExt_limb h, musigGeSerializeExt_limb g]

theorem effectiveNonce_limb (h : GeLimb c C) (g : GeLimb d D) (k : Fn) :
    GejLimb (Limb.effectiveNonce c d k) (Model.effectiveNonce C D k) := by
  unfold Limb.effectiveNonce Model.effectiveNonce
  exact ((ecmult_l g.gej k none).addGeVar h).1

theorem nonceProcessInternal_limb (h : GeLimb c C) (g : GeLimb d D) (agg msg : List UInt8) :
    Limb.nonceProcessInternal c d agg msg = Model.nonceProcessInternal C D agg msg := by
  unfold Limb.nonceProcessInternal Model.nonceProcessInternal
  dsimp only
  rw [computeNoncehash_limb h g]
  generalize (scSetB32 (Model.computeNoncehash C D agg msg)).1 = k
  have l := (effectiveNonce_limb h g k).ge MemRep.inv
  have l' : GeLimb (if (geSetGej (Limb.effectiveNonce c d k)).infinity = true then geConstG
      else geSetGej (Limb.effectiveNonce c d k)) (if (geSetGej (Model.effectiveNonce C D k)).infinity = true then
      geConstG else geSetGej (Model.effectiveNonce C D k)) := by
    rw [l.inf]
    split_ifs
    · exact constG_norm.limb
    · exact l
  rw [norm_odd l'.y, norm_b32 l'.x]

variable {k : Limb.KeyaggCache α} {K : Model.KeyaggCache}

theorem musigSession_limb (hk : CacheLimb k K) (hn : GeNorm k.pk K.pk) (h : GeLimb c C) (g : GeLimb d D)
    (msg : List UInt8) : Limb.musigSession k c d msg = Model.musigSession K C D msg := by
  unfold Limb.musigSession Model.musigSession
  dsimp only
  rw [show Limb.feGetB32 k.pk.x = _ from MemRep.getB32 hn.x, show Limb.feIsOdd k.pk.y = _ from MemRep.isOdd hn.y,
    nonceProcessInternal_limb h g, hk.tweak]

theorem musigNonceProcess_eq (session aggnonce msg : Option (List UInt8)) {cache : Option (List UInt8)}
    (hc : ∀ b ∈ cache, Canon (b.drop 4)) :
    Limb.musigNonceProcess α session aggnonce msg cache = Model.musigNonceProcess session aggnonce msg cache := by
  unfold Limb.musigNonceProcess Model.musigNonceProcess
  cases session with
  | none => rfl
  | some old =>
    cases aggnonce with
    | none => rfl
    | some aggnonce =>
      cases msg with
      | none => rfl
      | some msg =>
        cases cache with
        | none => rfl
        | some cache =>
          have r := keyaggCacheLoad_limb α cache
          have r' := aggnonceLoad_limb α aggnonce
          dsimp only
          revert r r'
          generalize Limb.keyaggCacheLoad α cache = u
          generalize Model.keyaggCacheLoad cache = v
          generalize Limb.aggnonceLoad α aggnonce = u'
          generalize Model.aggnonceLoad aggnonce = v'
          intro r r'
          cases r with
          | none => rfl
          | some r =>
            cases r' with
            | none => rfl
            | @some q Q r' =>
              obtain ⟨q0, q1⟩ := q
              obtain ⟨Q0, Q1⟩ := Q
              dsimp only
              rw [musigSession_limb r.1 (r.2 (hc cache rfl)) r'.1 r'.2]

/-! ### Partial signatures -/

theorem partialSignValue_limb (hk : CacheLimb k K) (hn : GeNorm k.pk K.pk) (h : GeLimb c C) (sk k0 k1 : Fn)
    (s : Session) : Limb.partialSignValue sk k0 k1 c k s = Model.partialSignValue sk k0 k1 C K s := by
  unfold Limb.partialSignValue Model.partialSignValue
  dsimp only
  rw [show Limb.feIsOdd k.pk.y = _ from MemRep.isOdd hn.y, hk.parity, keyaggCoef_limb hk h]

theorem partialSignWith_eq (partialSig : Option (List UInt8)) {keypair cache : Option (List UInt8)}
    (hp : ∀ b ∈ keypair, Canon (b.drop 32)) (hc : ∀ b ∈ cache, Canon (b.drop 4)) (session : Option (List UInt8))
    (k0 k1 : Fn) (h : GeLimb c C) (hx : Rep c.x 1 C.x) (hy : Rep c.y 1 C.y) :
    Limb.partialSignWith partialSig keypair cache session k0 k1 c =
      Model.partialSignWith partialSig keypair cache session k0 k1 C := by
  unfold Limb.partialSignWith Model.partialSignWith
  cases partialSig with
  | none => rfl
  | some old =>
    cases keypair with
    | none => rfl
    | some keypair =>
      cases cache with
      | none => rfl
      | some cache =>
        cases session with
        | none => rfl
        | some session =>
          obtain ⟨e1, n, e2⟩ := keypairLoad_limb α (hp keypair rfl)
          have r := keyaggCacheLoad_limb α cache
          dsimp only
          rw [e1, e2, hx.equal (MemRep.rep n.x), hy.equal (MemRep.rep n.y)]
          revert r
          generalize Limb.keyaggCacheLoad α cache = u
          generalize Model.keyaggCacheLoad cache = v
          intro r
          cases r with
          | none => rfl
          | some r =>
            cases sessionLoad session with
            | none => rfl
            | some s =>
              dsimp only
              rw [partialSignValue_limb r.1 (r.2 (hc cache rfl)) h]

theorem musigPartialSign_eq (partialSig secnonce : Option (List UInt8)) {keypair cache : Option (List UInt8)}
    (hp : ∀ b ∈ keypair, Canon (b.drop 32)) (hc : ∀ b ∈ cache, Canon (b.drop 4)) (session : Option (List UInt8)) :
    Limb.musigPartialSign α partialSig secnonce keypair cache session =
      Model.musigPartialSign partialSig secnonce keypair cache session := by
  unfold Limb.musigPartialSign Model.musigPartialSign
  cases secnonce with
  | none => rfl
  | some secnonce =>
    dsimp only
    unfold Limb.secnonceLoad Model.secnonceLoad
    by_cases h1 : memcmpVar secnonce secnonceMagic 4 ≠ 0
    · rw [if_pos h1, if_pos h1]
    · rw [if_neg h1, if_neg h1]
      by_cases h2 : isZeroArray ((secnonce.drop 4).take 64) = true
      · rw [if_pos h2, if_pos h2]
      · rw [if_neg h2, if_neg h2]
        dsimp only
        rw [partialSignWith_eq partialSig hp hc session _ _ (geFromBytes_limb α (secnonce.drop 68))
          (MemRep.fromMem (take32_le _)) (MemRep.fromMem (take32_le _))]

theorem partialSigCheck_limb {e : Ge α} {E : Ge Fp} (hk : CacheLimb k K) (hn : GeNorm k.pk K.pk) (h : GeLimb c C)
    (g : GeLimb d D) (q : GeLimb e E) (s : Fn) (sess : Session) :
    Limb.partialSigCheck s c d e k sess = Model.partialSigCheck s C D E K sess := by
  unfold Limb.partialSigCheck Model.partialSigCheck
  dsimp only
  rw [show Limb.feIsOdd k.pk.y = _ from MemRep.isOdd hn.y, hk.parity, keyaggCoef_limb hk q]
  have l := effectiveNonce_limb h g sess.noncecoef
  have l' : GejLimb (if sess.finNonceParity ≠ 0 then gejNeg (Limb.effectiveNonce c d sess.noncecoef)
      else Limb.effectiveNonce c d sess.noncecoef) (if sess.finNonceParity ≠ 0 then
      gejNeg (Model.effectiveNonce C D sess.noncecoef) else Model.effectiveNonce C D sess.noncecoef) := by
    by_cases hh : sess.finNonceParity ≠ 0
    · rw [if_pos hh, if_pos hh]
      exact l.neg
    · rw [if_neg hh, if_neg hh]
      exact l
  exact ((ecmult_l q.gej _ _).addVar l').1.inf

theorem musigPartialSigVerify_eq (partialSig pubnonce pubkey : Option (List UInt8)) {cache : Option (List UInt8)}
    (hc : ∀ b ∈ cache, Canon (b.drop 4)) (session : Option (List UInt8)) :
    Limb.musigPartialSigVerify α partialSig pubnonce pubkey cache session =
      Model.musigPartialSigVerify partialSig pubnonce pubkey cache session := by
  unfold Limb.musigPartialSigVerify Model.musigPartialSigVerify
  cases partialSig with
  | none => rfl
  | some partialSig =>
    cases pubnonce with
    | none => rfl
    | some pubnonce =>
      cases pubkey with
      | none => rfl
      | some pubkey =>
        cases cache with
        | none => rfl
        | some cache =>
          cases session with
          | none => rfl
          | some session =>
            dsimp only
            cases sessionLoad session with
            | none => rfl
            | some sess =>
              obtain ⟨e, l⟩ := pubkeyLoad_limb α pubkey
              have r := keyaggCacheLoad_limb α cache
              have r' := pubnonceLoad_limb α pubnonce
              dsimp only
              rw [e]
              revert r r'
              generalize Limb.keyaggCacheLoad α cache = u
              generalize Model.keyaggCacheLoad cache = v
              generalize Limb.pubnonceLoad α pubnonce = u'
              generalize Model.pubnonceLoad pubnonce = v'
              intro r r'
              cases r' with
              | none => rfl
              | @some q Q r' =>
                obtain ⟨q0, q1⟩ := q
                obtain ⟨Q0, Q1⟩ := Q
                dsimp only
                cases r with
                | none => rfl
                | some r =>
                  cases partialSigLoad partialSig with
                  | none => rfl
                  | some s =>
                    dsimp only
                    rw [partialSigCheck_limb r.1 (r.2 (hc cache rfl)) r'.1 r'.2 l]

end Limb

end Secp.Model
