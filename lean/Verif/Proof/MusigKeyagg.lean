import Verif.Model.MusigKeyagg
import Verif.Spec.Musig
import Verif.Proof.Schnorr
import Verif.Proof.MultiSimple
import Verif.Props.C02
import Verif.Props.C03

/-! # MuSig key aggregation -/

namespace Secp
open WeierstrassCurve Model Spec

seal keyObject beBytes keysHash compressed

theorem memcmpVar_take {a b : Bytes} {k : ℕ} (ha : k ≤ a.length) (hb : b.length = k) :
    memcmpVar a b k = 0 ↔ a.take k = b := by
  have e : ∀ (k : ℕ) (a b : Bytes), memcmpVar a b k = memcmpVar (a.take k) b k := by
    intro k
    induction k with
    | zero => intros; rfl
    | succ k ih =>
      intro a b
      cases a with
      | nil => simp
      | cons x a =>
        rw [memcmpVar, memcmpVar, List.take_succ_cons, List.tail_cons, List.tail_cons, ih a]
        rfl
  rw [e]
  exact (memcmpVar_lt (by simpa using ha) hb).2.1

theorem geFromBytes_append {a : Bytes} (h : a.length = 64) (t : Bytes) :
    geFromBytes (a ++ t) = geFromBytes a := by
  unfold geFromBytes
  have e1 : (a ++ t).take 32 = a.take 32 := List.take_append_of_le_length (by omega)
  have e2 : ((a ++ t).drop 32).take 32 = (a.drop 32).take 32 := by
    rw [List.drop_append_of_le_length (by omega), List.take_append_of_le_length (by simp; omega)]
  rw [e1, e2]

theorem scSetB32_append {a : Bytes} (h : a.length = 32) (t : Bytes) :
    scSetB32 (a ++ t) = scSetB32 a := by
  unfold scSetB32
  rw [List.take_append_of_le_length (by omega)]

theorem scSetB32_beBytes (a : Fn) : scSetB32 (beBytes 32 a.val) = (a, false) := by
  have hb : beNat ((beBytes 32 a.val).take 32) = a.val := by
    rw [take32 (Hash.beBytes_length _ _), beNat_beBytes, Nat.mod_eq_of_lt (fn_lt a)]
  obtain ⟨h1, h2⟩ := scSetB32_ok (b := beBytes 32 a.val) (by rw [hb]; exact ZMod.val_lt a)
  rw [hb] at h2
  exact Prod.ext (ZMod.val_injective n h2) h1

theorem geFromBytes_key {P : Pt} (hP : P ≠ 0) (t : Bytes) : GeRep 7 (geFromBytes (keyObject P ++ t)) P := by
  rw [geFromBytes_append (keyObject_length P)]
  exact geFromBytes_keyObject hP

theorem geFromBytesExt_key (P : Pt) (t : Bytes) : GeRep 7 (geFromBytesExt (keyObject P ++ t)) P := by
  have hm : memcmpVar (keyObject P ++ t) (zeros 64) 64 = 0 ↔ P = 0 := by
    rw [memcmpVar_take (by simp [keyObject_length]) (by simp [zeros]),
      List.take_left' (keyObject_length P), ← keyObject_zero]
    exact keyObject_injective.eq_iff
  unfold geFromBytesExt
  by_cases hP : P = 0
  · rw [if_pos (hm.2 hP), hP]
    exact geInfinity_rep 7
  · rw [if_neg (fun h => hP (hm.1 h))]
    exact geFromBytes_key hP t

theorem geToBytesExt_rep {a : Ge Fp} {P : Pt} (h : GeRep 7 a P) : geToBytesExt a = keyObject P := by
  unfold geToBytesExt
  by_cases hP : P = 0
  · rw [if_pos (h.inf_iff.2 hP), hP, keyObject_zero]
  · rw [if_neg (by rw [geRep_inf h hP]; decide), geToBytes_rep h hP]

/-! ### Hashes -/

theorem keyaggListMid_ok :
    Hash.toList (Hash.fastCompress Hash.h0 (Hash.fastSha keyaggListTag ++ Hash.fastSha keyaggListTag)) =
      keyaggListMid := by decide +kernel

theorem keyaggCoefMid_ok :
    Hash.toList (Hash.fastCompress Hash.h0 (Hash.fastSha keyaggCoefTag ++ Hash.fastSha keyaggCoefTag)) =
      keyaggCoefMid := by decide +kernel

theorem pksHashLoop_eq : ∀ (Ps : List Pt) (sha : Hash.Sha) (m : Bytes), (∀ P ∈ Ps, P ≠ 0) →
    Hash.Absorbed sha m →
    ∃ sha', pksHashLoop (Ps.map keyObject) sha = some sha' ∧ Hash.Absorbed sha' (m ++ Ps.flatMap compressed)
  | [], sha, m, _, h => ⟨sha, rfl, by simpa using h⟩
  | P :: Ps, sha, m, hP, h => by
    have hs := C02_serialize_compressed (hP P (by simp)) (zeros 33) (len := 33) (le_refl _) (by simp [zeros])
    obtain ⟨sha', e, ha⟩ := pksHashLoop_eq Ps _ _ (fun Q hQ => hP Q (by simp [hQ]))
      (Hash.write_absorbed h (compressed P))
    refine ⟨sha', ?_, ?_⟩
    · rw [List.map_cons, pksHashLoop, hs]
      simp only [Nat.sub_self, List.replicate_zero, List.append_nil, Option.getD_some]
      rw [if_neg (by decide), show (zeros 33).drop 33 = [] by simp [zeros], List.append_nil]
      exact e
    · rw [List.flatMap_cons, ← List.append_assoc]
      exact ha

theorem pksHashLoop_invalid : ∀ (objs : List Bytes) (sha : Hash.Sha),
    (∃ o ∈ objs, leNat (o.take 32) = 0) → pksHashLoop objs sha = none
  | [], _, h => by simp at h
  | o :: objs, sha, h => by
    rw [pksHashLoop]
    split
    · rfl
    · rename_i hr
      refine pksHashLoop_invalid objs _ ?_
      obtain ⟨o', ho', hz⟩ := h
      rcases List.mem_cons.1 ho' with rfl | ho'
      · refine absurd ?_ hr
        have hq : (pubkeyLoad o').2 = false := pubkeyLoad_x_zero hz
        unfold ecPubkeySerialize
        simp only [hq]
        rw [if_neg (by decide), if_neg (by decide)]
        rfl
      · exact ⟨o', ho', hz⟩

theorem computePksHash_eq {Ps : List Pt} (hP : ∀ P ∈ Ps, P ≠ 0) :
    computePksHash (Ps.map keyObject) = some (keysHash Ps) := by
  obtain ⟨sha, e, ha⟩ := pksHashLoop_eq Ps _ _ hP
    (midstate_absorbed Hash.uninit Hash.uninit_buf keyaggListMid_ok)
  rw [computePksHash, e]
  simp only
  rw [(Hash.finalize_spec ha).1, keysHash, taggedHash]

theorem keysHash_length (Ps : List Pt) : (keysHash Ps).length = 32 := by
  rw [keysHash]; exact Hash.sha_length _

theorem taggedHash_length (t m : Bytes) : (taggedHash t m).length = 32 := Hash.sha_length _

theorem midHash2 {tag : Bytes} {s : List UInt32}
    (hs : Hash.toList (Hash.fastCompress Hash.h0 (Hash.fastSha tag ++ Hash.fastSha tag)) = s)
    (a b : Bytes) :
    (Hash.finalize (Hash.write (Hash.write (shaMidstate Hash.uninit s) a) b)).1 =
      taggedHash tag (a ++ b) := by
  have := (Hash.finalize_spec (Hash.write_absorbed (Hash.write_absorbed
    (midstate_absorbed _ Hash.uninit_buf hs) a) b)).1
  rw [this, taggedHash, List.append_assoc]

theorem scSetB32_hash (t m : Bytes) :
    (scSetB32 (taggedHash t m)).1 = ((beNat (taggedHash t m) : ℕ) : Fn) := by
  simp only [scSetB32]
  rw [take32 (taggedHash_length _ _)]

theorem keyaggCoefInternal_eq {Ps : List Pt} {a sec : Ge Fp} {P : Pt} (h : GeRep 7 a P) (hP : P ≠ 0)
    (hs : GeRep 7 sec (secondKey Ps)) : keyaggCoefInternal (keysHash Ps) a sec = keyCoef Ps P := by
  unfold keyaggCoefInternal keyCoef
  have hc : (!sec.infinity && geEqVar a sec) = true ↔ P = secondKey Ps := by
    rw [Bool.and_eq_true, geEqVar_iff h hs, Bool.not_eq_true', Bool.eq_false_iff, Ne, hs.inf_iff]
    constructor
    · exact fun h => h.2
    · exact fun h => ⟨h ▸ hP, h⟩
  by_cases he : P = secondKey Ps
  · rw [if_pos (hc.2 he), if_pos he]
  · rw [if_neg (fun h => he (hc.1 h)), if_neg he]
    simp only
    rw [serialize_compressed h hP (by simp [zeros]), show (zeros 33).drop 33 = [] by simp [zeros],
      List.append_nil, take32 (keysHash_length Ps), midHash2 keyaggCoefMid_ok, scSetB32_hash]

/-! ### The aggregate key -/

theorem secondKey_cons (P : Pt) (Ps : List Pt) :
    secondKey (P :: Ps) = (Ps.find? fun Q => decide (Q ≠ P)).getD 0 := by
  unfold secondKey
  rw [List.headD_cons, List.find?_cons_of_neg (by simp)]

theorem findSecond_eq (P : Pt) (Ps : List Pt) : findSecond (keyObject P) (Ps.map keyObject) =
    (Ps.find? fun Q => decide (Q ≠ P)).map keyObject := by
  unfold findSecond
  rw [List.find?_map]
  congr 2
  funext Q
  have hm := memcmpVar_take (a := keyObject P) (b := keyObject Q) (k := 64) (by rw [keyObject_length])
    (keyObject_length Q)
  rw [List.take_of_length_le (by rw [keyObject_length]), keyObject_injective.eq_iff] at hm
  simp only [Function.comp]
  rw [decide_eq_decide, ne_eq, hm, ne_eq, eq_comm]

theorem callbackFor_keys {pks : List Bytes} {Ps : List Pt} {sec : Ge Fp}
    (hs : GeRep 7 sec (secondKey Ps)) :
    ∀ (Qs : List Pt) (idx : ℕ), (∀ Q ∈ Qs, Q ≠ 0) → pks.drop idx = Qs.map keyObject →
    CallbackFor (pubkeyAggCallback pks (keysHash Ps) sec) idx (Qs.map fun Q => (keyCoef Ps Q, Q))
  | [], _, _, _ => trivial
  | Q :: Qs, idx, hQ, e => by
    have hq := hQ Q (by simp)
    obtain ⟨-, h2, -⟩ := pubkeyLoad_obj hq
    refine ⟨⟨(pubkeyLoad (keyObject Q)).1, ?_, h2⟩,
      callbackFor_keys hs Qs (idx + 1) (fun Q h => hQ Q (by simp [h])) ?_⟩
    · have : pks.getD idx [] = keyObject Q := by
        rw [List.getD_eq_getElem?_getD, ← Nat.add_zero idx, ← List.getElem?_drop, e]; rfl
      simp only [pubkeyAggCallback]
      rw [this, keyaggCoefInternal_eq h2 hq hs]
    · rw [← List.drop_drop, e]; rfl

theorem aggPoint_sum (Ps : List Pt) :
    ((Ps.map fun Q => (keyCoef Ps Q, Q)).map fun q => q.1 • q.2).sum = aggPoint Ps := by
  rw [List.map_map, aggPoint]
  refine congrArg List.sum (List.map_congr_left fun P _ => ?_)
  simp only [Function.comp]
  rw [val_smul]

theorem pubkeyAggWith_eq {Ps : List Pt} (hP : ∀ P ∈ Ps, P ≠ 0) (hQ : aggPoint Ps ≠ 0) {sec : Ge Fp}
    (hs : GeRep 7 sec (secondKey Ps)) (aggPk cache : Option Bytes) :
    pubkeyAggWith aggPk cache (Ps.map keyObject) sec =
      ⟨1, 0, (aggPk.map fun _ => keyObject (evenY (aggPoint Ps)),
        cache.map fun _ => cacheObject Ps (keyaggInit Ps))⟩ := by
  obtain ⟨r, e, hr⟩ := ecmultMultiVarNull_rep (callbackFor_keys hs Ps 0 hP (pks := Ps.map keyObject) rfl) none
  rw [aggPoint_sum, Option.getD_none, fn_zero_smul, add_zero] at hr
  have hg := geSetGej_rep hr
  rw [List.length_map] at e
  unfold pubkeyAggWith
  rw [computePksHash_eq hP]
  simp only [List.length_map]
  rw [e]
  simp only
  have hn : ({ x := (geSetGej r).x, y := FeOps.normalize (geSetGej r).y, infinity := (geSetGej r).infinity } : Ge Fp) = geSetGej r := rfl
  rw [hn, pubkeySave_rep (geEvenY_rep hg hQ).1 (evenY_ne_zero hQ)]
  have hc : keyaggCacheSave ⟨geSetGej r, sec, keysHash Ps, 0, 0⟩ = cacheObject Ps (keyaggInit Ps) := by
    unfold keyaggCacheSave cacheObject keyaggInit
    simp only
    rw [geToBytes_rep hg hQ, geToBytesExt_rep hs, if_pos trivial]
    rfl
  rw [hc]

/-! ### The cache object -/

/-- What a cache object made by the library holds. -/
structure KeyaggOk (c : KeyaggCtx) : Prop where
  finite : c.Q ≠ 0
  sign : c.gacc = 1 ∨ c.gacc = -1

theorem one_ne_neg_one : (1 : Fn) ≠ -1 := by decide +kernel

theorem drop_append_len {a b : Bytes} {k j : ℕ} (h : a.length = k) : (a ++ b).drop (k + j) = b.drop j := by
  rw [← h, Hash.drop_append_add]

theorem keyaggCacheLoad_obj {Ps : List Pt} {c : KeyaggCtx} (hc : KeyaggOk c) :
    ∃ a sec, keyaggCacheLoad (cacheObject Ps c) =
        some ⟨a, sec, keysHash Ps, c.tacc, (if c.gacc = 1 then 0 else 1)⟩ ∧
      GeRep 7 a c.Q ∧ GeRep 7 sec (secondKey Ps) := by
  have hm : memcmpVar (cacheObject Ps c) cacheMagic 4 = 0 := by
    rw [memcmpVar_take (k := 4) (by simp [cacheObject]) rfl]
    simp [cacheObject, cacheMagic]
  generalize hpar : (if c.gacc = 1 then 0 else 1 : UInt8) = par
  generalize hparN : (if c.gacc = 1 then 0 else 1 : ℕ) = parN
  have hpp : (par &&& 1).toNat = parN := by
    rw [← hpar, ← hparN]
    by_cases h : c.gacc = 1
    · rw [if_pos h, if_pos h]; rfl
    · rw [if_neg h, if_neg h]; rfl
  have e0 : cacheObject Ps c = [0xf4, 0xad, 0xbb, 0xdf] ++ (keyObject c.Q ++ (keyObject (secondKey Ps) ++
      (keysHash Ps ++ ([par] ++ beBytes 32 c.tacc.val)))) := by
    unfold cacheObject
    rw [hpar]
    simp only [List.append_assoc]
  rw [keyaggCacheLoad, if_neg (by simpa using hm)]
  have e1 : (cacheObject Ps c).drop 4 = keyObject c.Q ++ (keyObject (secondKey Ps) ++
      (keysHash Ps ++ ([par] ++ beBytes 32 c.tacc.val))) := by rw [e0]; rfl
  have e2 : (cacheObject Ps c).drop 68 = keyObject (secondKey Ps) ++
      (keysHash Ps ++ ([par] ++ beBytes 32 c.tacc.val)) := by
    rw [← List.drop_drop (i := 64) (j := 4), e1, List.drop_left' (keyObject_length _)]
  have e3 : (cacheObject Ps c).drop 132 = keysHash Ps ++ ([par] ++ beBytes 32 c.tacc.val) := by
    rw [← List.drop_drop (i := 64) (j := 68), e2, List.drop_left' (keyObject_length _)]
  have e4 : (cacheObject Ps c).drop 164 = [par] ++ beBytes 32 c.tacc.val := by
    rw [← List.drop_drop (i := 32) (j := 132), e3, List.drop_left' (keysHash_length _)]
  have e5 : (cacheObject Ps c).drop 165 = beBytes 32 c.tacc.val := by
    rw [← List.drop_drop (i := 1) (j := 164), e4]; rfl
  have e6 : (cacheObject Ps c).getD 164 0 = par := by
    rw [List.getD_eq_getElem?_getD, ← Nat.add_zero 164, ← List.getElem?_drop, e4]; rfl
  refine ⟨geFromBytes ((cacheObject Ps c).drop 4), geFromBytesExt ((cacheObject Ps c).drop 68), ?_, ?_, ?_⟩
  · rw [e3, e5, e6, List.take_left' (keysHash_length _), scSetB32_beBytes, hpp]
  · rw [e1]; exact geFromBytes_key hc.finite _
  · rw [e2]; exact geFromBytesExt_key _ _

/-! ### Tweaks -/

theorem signY_cases (P : Pt) : signY P = 1 ∨ signY P = -1 := by
  unfold signY
  split
  · exact Or.inr rfl
  · exact Or.inl rfl

theorem signY_smul (P : Pt) : signY P • P = evenY P := by
  unfold signY evenY
  split
  · rw [neg_smul, one_smul]
  · rw [one_smul]

/-- The sign that a tweak applies before it is added. -/
def tweakSign (c : KeyaggCtx) (x : Bool) : Fn := if x then signY c.Q else 1

theorem tweakSign_cases (c : KeyaggCtx) (x : Bool) : tweakSign c x = 1 ∨ tweakSign c x = -1 := by
  unfold tweakSign
  split
  · exact signY_cases _
  · exact Or.inl rfl

theorem cacheEven_eq {c : KeyaggCtx} (hc : KeyaggOk c) {a sec : Ge Fp} (ha : GeRep 7 a c.Q) (h : Bytes)
    (x : Bool) :
    ∃ a', cacheEven ⟨a, sec, h, c.tacc, if c.gacc = 1 then 0 else 1⟩ x =
        ⟨a', sec, h, tweakSign c x * c.tacc, if tweakSign c x * c.gacc = 1 then 0 else 1⟩ ∧
      GeRep 7 a' (tweakSign c x • c.Q) := by
  obtain ⟨h1, h2⟩ := geEvenY_rep ha hc.finite
  have same : tweakSign c x = 1 → ∃ a', (⟨a, sec, h, c.tacc, if c.gacc = 1 then 0 else 1⟩ : KeyaggCache) =
        ⟨a', sec, h, tweakSign c x * c.tacc, if tweakSign c x * c.gacc = 1 then 0 else 1⟩ ∧
      GeRep 7 a' (tweakSign c x • c.Q) := by
    intro e
    rw [e, one_mul, one_mul, one_smul]
    exact ⟨a, rfl, ha⟩
  unfold cacheEven
  simp only
  cases x with
  | false => exact same rfl
  | true =>
    by_cases ho : ptY c.Q % 2 = 1
    · rw [h2, ho]
      have e : tweakSign c true = -1 := by
        rw [tweakSign, if_pos rfl, signY, if_pos ho]
      rw [if_pos (by decide)]
      refine ⟨(geEvenY a).1, ?_, ?_⟩
      · rw [e, neg_one_mul, neg_one_mul]
        have : ((if c.gacc = 1 then 0 else 1 : ℕ) ^^^ 1) = if -c.gacc = 1 then 0 else 1 := by
          rcases hc.sign with h | h
          · rw [h, if_pos rfl, if_neg (fun h => one_ne_neg_one h.symm)]; rfl
          · rw [h, if_neg (fun h => one_ne_neg_one h.symm), neg_neg, if_pos rfl]; rfl
        rw [this]
      · rw [tweakSign, if_pos rfl, signY_smul]
        exact h1
    · rw [h2, show ptY c.Q % 2 = 0 by omega]
      have e : tweakSign c true = 1 := by
        rw [tweakSign, if_pos rfl, signY, if_neg ho]
      rw [if_neg (by decide)]
      exact same e

theorem keyaggCacheSave_obj {Ps : List Pt} {c : KeyaggCtx} (hc : KeyaggOk c) {a sec : Ge Fp}
    (ha : GeRep 7 a c.Q) (hs : GeRep 7 sec (secondKey Ps)) :
    keyaggCacheSave ⟨a, sec, keysHash Ps, c.tacc, if c.gacc = 1 then 0 else 1⟩ = cacheObject Ps c := by
  unfold keyaggCacheSave cacheObject
  simp only
  rw [geToBytes_rep ha hc.finite, geToBytesExt_rep hs]
  have : UInt8.ofNat (if c.gacc = 1 then 0 else 1) = (if c.gacc = 1 then 0 else 1) := by
    split <;> rfl
  rw [this]
  rfl

theorem applyTweak_some {c c' : KeyaggCtx} {x : Bool} {t : Bytes} (h : applyTweak c x t = some c') :
    beNat t < n ∧ (tweakSign c x).val • c.Q + beNat t • G ≠ 0 ∧
      c' = ⟨(tweakSign c x).val • c.Q + beNat t • G, tweakSign c x * c.gacc,
        ((beNat t : ℕ) : Fn) + tweakSign c x * c.tacc⟩ := by
  unfold applyTweak at h
  simp only at h
  rw [← tweakSign] at h
  by_cases hh : beNat t < n ∧ (tweakSign c x).val • c.Q + beNat t • G ≠ 0
  · rw [if_pos hh] at h
    exact ⟨hh.1, hh.2, (Option.some.inj h).symm⟩
  · rw [if_neg hh] at h
    cases h

theorem applyTweak_ok {c c' : KeyaggCtx} (hc : KeyaggOk c) {x : Bool} {t : Bytes}
    (h : applyTweak c x t = some c') : KeyaggOk c' := by
  obtain ⟨-, h2, rfl⟩ := applyTweak_some h
  refine ⟨h2, ?_⟩
  rcases tweakSign_cases c x with e | e <;> rcases hc.sign with e' | e' <;> simp only [e, e'] <;> simp

theorem tweakAdd_eq {Ps : List Pt} {c : KeyaggCtx} (hc : KeyaggOk c) {t : Bytes} (ht : t.length = 32)
    (x : Bool) (out : Option Bytes) :
    musigTweakAddInternal out (some (cacheObject Ps c)) (some t) x =
      match applyTweak c x t with
      | some c' => ⟨1, 0, (out.map fun _ => keyObject c'.Q, some (cacheObject Ps c'))⟩
      | none => ⟨0, 0, (out.map fun _ => List.replicate 64 0, some (cacheObject Ps c))⟩ := by
  obtain ⟨a, sec, hl, ha, hs⟩ := keyaggCacheLoad_obj (Ps := Ps) hc
  unfold musigTweakAddInternal
  simp only
  rw [hl]
  simp only
  have hte : (scSetB32 t).1 = ((beNat t : ℕ) : Fn) := by
    simp only [scSetB32]; rw [take32 ht]
  by_cases hn : beNat t < n
  · have hto : (scSetB32 t).2 = false := (scSetB32_ok (by rw [take32 ht]; exact hn)).1
    rw [hto, if_neg (by decide)]
    obtain ⟨a', he, ha'⟩ := cacheEven_eq hc (sec := sec) ha (keysHash Ps) x
    rw [he]
    simp only
    obtain ⟨k1, k2⟩ := tweakAdd_rep ha' ((beNat t : ℕ) : Fn)
    rw [hte]
    have hpt : (tweakSign c x).val • c.Q + beNat t • G = tweakSign c x • c.Q + ((beNat t : ℕ) : Fn) • G := by
      rw [val_smul, natCast_smul]
    by_cases h0 : tweakSign c x • c.Q + ((beNat t : ℕ) : Fn) • G = 0
    · have hf : (eckeyPubkeyTweakAdd a' ((beNat t : ℕ) : Fn)).2 = false := by
        rw [Bool.eq_false_iff, Ne, k1, not_not]; exact h0
      have hA : applyTweak c x t = none := by
        unfold applyTweak
        simp only
        rw [← tweakSign, hpt, if_neg (fun h => h.2 h0)]
      rw [hf, hA, if_pos (by decide)]
      rfl
    · have hA : applyTweak c x t = some ⟨tweakSign c x • c.Q + ((beNat t : ℕ) : Fn) • G,
          tweakSign c x * c.gacc, ((beNat t : ℕ) : Fn) + tweakSign c x * c.tacc⟩ := by
        unfold applyTweak
        simp only
        rw [← tweakSign, hpt, if_pos ⟨hn, h0⟩]
      have hok := applyTweak_ok hc hA
      rw [k1.2 h0, if_neg (by decide), hA]
      simp only
      rw [pubkeySave_rep (k2 h0) h0, add_comm (tweakSign c x * c.tacc), Option.map_map]
      have := keyaggCacheSave_obj (Ps := Ps) hok (k2 h0) hs
      simp only at this
      rw [this]
      rfl
  · have hto : (scSetB32 t).2 = true := by rw [scSetB32_overflow, take32 ht]; omega
    have hA : applyTweak c x t = none := by
      unfold applyTweak
      simp only
      rw [if_neg (fun h => hn h.1)]
    rw [hto, if_pos rfl, hA]
    rfl

end Secp
