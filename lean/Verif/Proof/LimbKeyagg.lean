import Verif.Proof.LimbXonly
import Verif.Proof.GroupAllLimb
import Verif.Model.Limb.Musig

/-!
# Key aggregation computes the same on limbs as on values
-/

namespace Secp.Model
open Secp FeOps LimbRep
open Secp.Spec (beNat beBytes leNat leBytes)

variable {α : Type} [FeOps α] [FeMem α] [LimbRep α] [MemRep α]

/-- The limbs of a key aggregation cache. -/
structure CacheLimb (c : Limb.KeyaggCache α) (C : Model.KeyaggCache) : Prop where
  pk : GeLimb c.pk C.pk
  second : GeLimb c.secondPk C.secondPk
  hash : c.pksHash = C.pksHash
  tweak : c.tweak = C.tweak
  parity : c.parityAcc = C.parityAcc

namespace Limb

variable {c d : Ge α} {C D : Ge Fp} {a : Gej α} {A : Gej Fp}

/-! ### Points that may be at infinity -/

theorem geToBytesExt_limb (h : GeLimb c C) : Limb.geToBytesExt c = Model.geToBytesExt C := by
  unfold Limb.geToBytesExt Model.geToBytesExt
  rw [h.inf, geToBytes_limb h]

variable (α) in
theorem geFromBytesExt_limb (b : List UInt8) : GeLimb (Limb.geFromBytesExt α b) (Model.geFromBytesExt b) := by
  unfold Limb.geFromBytesExt Model.geFromBytesExt
  split_ifs
  · exact GeLimb.infinity
  · exact geFromBytes_limb α b

/-! ### The cache -/

theorem keyaggCacheSave_limb {k : Limb.KeyaggCache α} {K : Model.KeyaggCache} (h : CacheLimb k K) :
    Limb.keyaggCacheSave k = Model.keyaggCacheSave K := by
  unfold Limb.keyaggCacheSave Model.keyaggCacheSave
  rw [geToBytes_limb h.pk, geToBytesExt_limb h.second, h.hash, h.tweak, h.parity]

theorem keyaggCacheSave_mk (h : GeLimb c C) (g : GeLimb d D) (hash : List UInt8) (t : Fn) (q : ℕ) :
    Limb.keyaggCacheSave ⟨c, d, hash, t, q⟩ = Model.keyaggCacheSave ⟨C, D, hash, t, q⟩ :=
  keyaggCacheSave_limb ⟨h, g, rfl, rfl, rfl⟩

variable (α) in
theorem keyaggCacheLoad_limb (cache : List UInt8) :
    Option.Rel (fun k K => CacheLimb k K ∧ (Canon (cache.drop 4) → GeNorm k.pk K.pk))
      (Limb.keyaggCacheLoad α cache) (Model.keyaggCacheLoad cache) := by
  unfold Limb.keyaggCacheLoad Model.keyaggCacheLoad
  by_cases hm : memcmpVar cache cacheMagic 4 ≠ 0
  · rw [if_pos hm, if_pos hm]
    exact .none
  · rw [if_neg hm, if_neg hm]
    exact .some ⟨⟨geFromBytes_limb α _, geFromBytesExt_limb α _, rfl, rfl, rfl⟩, fun hc => geFromBytes_norm α hc⟩

/-! ### Coefficients -/

theorem pksHashLoop_eq (pks : List (List UInt8)) (sha : Hash.Sha) :
    Limb.pksHashLoop α pks sha = Model.pksHashLoop pks sha := by
  induction pks generalizing sha with
  | nil => rfl
  | cons pk rest ih =>
    rw [Limb.pksHashLoop, Model.pksHashLoop, ecPubkeySerialize_eq]
    simp only [ih]

theorem computePksHash_eq (pks : List (List UInt8)) : Limb.computePksHash α pks = Model.computePksHash pks := by
  unfold Limb.computePksHash Model.computePksHash
  rw [pksHashLoop_eq]
  cases Model.pksHashLoop pks (shaMidstate Hash.uninit keyaggListMid) <;> rfl

theorem keyaggCoefInternal_limb (hash : List UInt8) (h : GeLimb c C) (g : GeLimb d D) :
    Limb.keyaggCoefInternal hash c d = Model.keyaggCoefInternal hash C D := by
  unfold Limb.keyaggCoefInternal Model.keyaggCoefInternal
  rw [g.inf, h.eqVar g, eckeyPubkeySerialize_limb h]

theorem keyaggCoef_limb {k : Limb.KeyaggCache α} {K : Model.KeyaggCache} (hk : CacheLimb k K) (h : GeLimb c C) :
    Limb.keyaggCoef k c = Model.keyaggCoef K C := by
  unfold Limb.keyaggCoef Model.keyaggCoef
  rw [hk.hash, keyaggCoefInternal_limb _ h hk.second]

/-! ### Aggregation -/

theorem multiSimpleLoop_limb {cb : MultiCallbackOf α} {CB : MultiCallback}
    (hcb : ∀ i, Option.Rel (fun q Q => q.1 = Q.1 ∧ GeLimb q.2 Q.2) (cb i) (CB i)) (k i : ℕ) (h : GejLimb a A) :
    Option.Rel GejLimb (multiSimpleLoop cb k i a) (multiSimpleLoop CB k i A) := by
  induction k generalizing i a A with
  | zero => exact .some h
  | succ k ih =>
    rw [multiSimpleLoop, multiSimpleLoop]
    have r := hcb i
    revert r
    generalize cb i = q
    generalize CB i = Q
    intro r
    cases r with
    | none => exact .none
    | @some q Q r =>
      obtain ⟨s, P⟩ := q
      obtain ⟨S, Q⟩ := Q
      dsimp only at r ⊢
      obtain ⟨e, l⟩ := r
      subst e
      exact ih _ (h.addVar (ecmult_l l.gej s none)).1

theorem ecmultMultiVarNull_limb {cb : MultiCallbackOf α} {CB : MultiCallback}
    (hcb : ∀ i, Option.Rel (fun q Q => q.1 = Q.1 ∧ GeLimb q.2 Q.2) (cb i) (CB i)) (g : Option Fn) (k : ℕ) :
    Option.Rel GejLimb (ecmultMultiVarNull g cb k) (ecmultMultiVarNull g CB k) := by
  unfold ecmultMultiVarNull
  by_cases h1 : g = none ∧ k = 0
  · rw [if_pos h1, if_pos h1]
    exact .some GejLimb.infinity
  · rw [if_neg h1, if_neg h1]
    by_cases h2 : k = 0
    · rw [if_pos h2, if_pos h2]
      exact .some (ecmult_l GejLimb.infinity 0 g)
    · rw [if_neg h2, if_neg h2]
      unfold ecmultMultiSimpleVar
      exact multiSimpleLoop_limb hcb k 0 (ecmult_l GejLimb.infinity 0 g)

theorem pubkeyAggCallback_limb (pks : List (List UInt8)) (hash : List UInt8) (g : GeLimb d D) (i : ℕ) :
    Option.Rel (fun q Q => q.1 = Q.1 ∧ GeLimb q.2 Q.2) (Limb.pubkeyAggCallback pks hash d i)
      (Model.pubkeyAggCallback pks hash D i) := by
  obtain ⟨-, l⟩ := pubkeyLoad_limb α (pks.getD i [])
  unfold Limb.pubkeyAggCallback Model.pubkeyAggCallback
  exact .some ⟨keyaggCoefInternal_limb hash l g, l⟩

theorem geEvenY_limb' (h : GeLimb c C) (hy : MemRep.Norm c.y C.y) : (Limb.geEvenY c).2 = (Model.geEvenY C).2 ∧
    GeLimb (Limb.geEvenY c).1 (Model.geEvenY C).1 := by
  unfold Limb.geEvenY Model.geEvenY
  rw [show Limb.feIsOdd c.y = _ from MemRep.isOdd hy]
  split_ifs
  · exact ⟨rfl, h.x, ((MemRep.rep hy).negate' 1).mono (by omega), h.inf⟩
  · exact ⟨rfl, h⟩

theorem pubkeyAggWith_eq (agg cache : Option (List UInt8)) (pks : List (List UInt8)) (g : GeLimb d D) :
    Limb.pubkeyAggWith agg cache pks d = Model.pubkeyAggWith agg cache pks D := by
  unfold Limb.pubkeyAggWith Model.pubkeyAggWith
  rw [computePksHash_eq]
  cases Model.computePksHash pks with
  | none => rfl
  | some hash =>
    dsimp only
    have r := ecmultMultiVarNull_limb (pubkeyAggCallback_limb pks hash g) none pks.length
    revert r
    generalize ecmultMultiVarNull none (Limb.pubkeyAggCallback pks hash d) pks.length = u
    generalize ecmultMultiVarNull none (Model.pubkeyAggCallback pks hash D) pks.length = v
    intro r
    cases r with
    | none => rfl
    | @some q Q r =>
      have l := r.ge MemRep.inv
      have n := norm_of_rep l.y
      have l' : GeLimb { geSetGej q with y := FeOps.normalize (geSetGej q).y }
          { geSetGej Q with y := FeOps.normalize (geSetGej Q).y } :=
        ⟨l.x, (MemRep.rep n).mono (by omega), l.inf⟩
      obtain ⟨-, l2⟩ := geEvenY_limb' l' n
      dsimp only
      rw [pubkeySave_limb l2, keyaggCacheSave_mk l' g]

theorem musigPubkeyAgg_eq (agg cache : Option (List UInt8)) (pks : Option (List (List UInt8))) :
    Limb.musigPubkeyAgg α agg cache pks = Model.musigPubkeyAgg agg cache pks := by
  unfold Limb.musigPubkeyAgg Model.musigPubkeyAgg
  cases pks with
  | none => rfl
  | some pks =>
    cases pks with
    | nil => rfl
    | cons pk0 rest =>
      dsimp only
      cases findSecond pk0 rest with
      | none => exact pubkeyAggWith_eq _ _ _ GeLimb.infinity
      | some pk =>
        obtain ⟨e, l⟩ := pubkeyLoad_limb α pk
        dsimp only
        rw [e, pubkeyAggWith_eq _ _ _ l]

theorem musigPubkeyGet_eq (agg cache : Option (List UInt8)) :
    Limb.musigPubkeyGet α agg cache = Model.musigPubkeyGet agg cache := by
  unfold Limb.musigPubkeyGet Model.musigPubkeyGet
  cases agg with
  | none => rfl
  | some _ =>
    cases cache with
    | none => rfl
    | some cache =>
      have r := keyaggCacheLoad_limb α cache
      dsimp only
      revert r
      generalize Limb.keyaggCacheLoad α cache = u
      generalize Model.keyaggCacheLoad cache = v
      intro r
      cases r with
      | none => rfl
      | some r =>
        dsimp only
        rw [pubkeySave_limb r.1.pk]

theorem cacheEven_limb {k : Limb.KeyaggCache α} {K : Model.KeyaggCache} (h : CacheLimb k K) {xonly : Bool}
    (hn : xonly = true → GeNorm k.pk K.pk) : CacheLimb (Limb.cacheEven k xonly) (Model.cacheEven K xonly) := by
  unfold Limb.cacheEven Model.cacheEven
  cases xonly with
  | false => exact h
  | true =>
    obtain ⟨e, l⟩ := geEvenY_limb (hn rfl)
    dsimp only
    rw [e]
    split_ifs
    · exact ⟨l, h.second, h.hash, congrArg Neg.neg h.tweak, congrArg (· ^^^ 1) h.parity⟩
    · exact h

theorem musigTweakAddInternal_eq (out : Option (List UInt8)) {cache : Option (List UInt8)}
    (tweak : Option (List UInt8)) {xonly : Bool} (hc : xonly = true → ∀ b ∈ cache, Canon (b.drop 4)) :
    Limb.musigTweakAddInternal α out cache tweak xonly = Model.musigTweakAddInternal out cache tweak xonly := by
  unfold Limb.musigTweakAddInternal Model.musigTweakAddInternal
  cases cache with
  | none => rfl
  | some cache =>
    cases tweak with
    | none => rfl
    | some tweak =>
      have r := keyaggCacheLoad_limb α cache
      dsimp only
      revert r
      generalize Limb.keyaggCacheLoad α cache = u
      generalize Model.keyaggCacheLoad cache = v
      intro r
      cases r with
      | none => rfl
      | some r =>
        have l := cacheEven_limb r.1 (xonly := xonly) (fun hx => r.2 (hc hx cache rfl))
        obtain ⟨e, g⟩ := eckeyPubkeyTweakAdd_limb l.pk (scSetB32 tweak).1
        dsimp only
        rw [e, pubkeySave_limb g, keyaggCacheSave_mk g l.second, l.hash, l.tweak, l.parity]

theorem musigEcTweakAdd_eq (out cache tweak : Option (List UInt8)) :
    Limb.musigEcTweakAdd α out cache tweak = Model.musigEcTweakAdd out cache tweak :=
  musigTweakAddInternal_eq out tweak (fun h => by simp at h)

theorem musigXonlyTweakAdd_eq (out : Option (List UInt8)) {cache : Option (List UInt8)}
    (tweak : Option (List UInt8)) (hc : ∀ b ∈ cache, Canon (b.drop 4)) :
    Limb.musigXonlyTweakAdd α out cache tweak = Model.musigXonlyTweakAdd out cache tweak :=
  musigTweakAddInternal_eq out tweak (fun _ => hc)

end Limb

end Secp.Model
