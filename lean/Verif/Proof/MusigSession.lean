import Verif.Model.MusigSession
import Verif.Proof.MusigKeyagg
import Verif.Proof.GroupAll

/-! # MuSig sessions -/

namespace Secp
open WeierstrassCurve Model Spec

seal keyObject beBytes keysHash compressed

/-! ### Objects -/

theorem beBytes_len (k x : ℕ) : (beBytes k x).length = k := Hash.beBytes_length k x

theorem memcmp_magic {m : Bytes} (t : Bytes) (h : m.length = 4) : memcmpVar (m ++ t) m 4 = 0 := by
  rw [memcmpVar_take (k := 4) (by rw [List.length_append, h]; omega) h, List.take_left' h]

theorem isZeroArray_iff (b : Bytes) : isZeroArray b = true ↔ ∀ x ∈ b, x = 0 := by
  have key : ∀ (b : Bytes) (a : UInt8), b.foldl (fun acc x => acc ||| x) a = 0 ↔ a = 0 ∧ ∀ x ∈ b, x = 0 := by
    intro b
    induction b with
    | nil => simp
    | cons y b ih =>
      intro a
      rw [List.foldl_cons, ih]
      have : a ||| y = 0 ↔ a = 0 ∧ y = 0 := by
        rw [← UInt8.toNat_inj, ← UInt8.toNat_inj, ← UInt8.toNat_inj, UInt8.toNat_or]
        exact Nat.or_eq_zero_iff
      rw [this]
      simp only [List.mem_cons, forall_eq_or_imp, and_assoc]
  unfold isZeroArray
  rw [beq_iff_eq, key]
  simp

theorem beBytes_all_zero {x : ℕ} (hx : x < 256 ^ 32) (h : ∀ y ∈ beBytes 32 x, y = 0) : x = 0 := by
  have e : beBytes 32 x = List.replicate 32 0 :=
    List.eq_replicate_iff.2 ⟨beBytes_len _ _, h⟩
  rw [← beBytes_zero] at e
  exact beBytes_inj hx (by norm_num) e

theorem scGetB32_eq (a : Fn) : scGetB32 a = beBytes 32 a.val := rfl

theorem secnonceSave_obj {k1 k2 : Fn} {P : Pt} (hP : P ≠ 0) {a : Ge Fp} (ha : GeRep 7 a P) :
    secnonceSave k1 k2 a = secnonceObject k1 k2 P := by
  unfold secnonceSave secnonceObject
  rw [geToBytes_rep ha hP, scGetB32_eq, scGetB32_eq]
  rfl

theorem secnonceLoad_obj {k1 k2 : Fn} (hk : ¬ (k1 = 0 ∧ k2 = 0)) {P : Pt} (hP : P ≠ 0) :
    ∃ a, secnonceLoad (secnonceObject k1 k2 P) = some (k1, k2, a) ∧ GeRep 7 a P := by
  have e0 : secnonceObject k1 k2 P = secnonceMagic ++ (beBytes 32 k1.val ++ (beBytes 32 k2.val ++
      keyObject P)) := by
    unfold secnonceObject secnonceMagic
    simp only [List.append_assoc]
  have e1 : (secnonceObject k1 k2 P).drop 4 = beBytes 32 k1.val ++ (beBytes 32 k2.val ++ keyObject P) := by
    rw [e0]; rfl
  have e2 : (secnonceObject k1 k2 P).drop 36 = beBytes 32 k2.val ++ keyObject P := by
    rw [← List.drop_drop (i := 32) (j := 4), e1, List.drop_left' (beBytes_len _ _)]
  have e3 : (secnonceObject k1 k2 P).drop 68 = keyObject P := by
    rw [← List.drop_drop (i := 32) (j := 36), e2, List.drop_left' (beBytes_len _ _)]
  have hm : memcmpVar (secnonceObject k1 k2 P) secnonceMagic 4 = 0 := by
    rw [e0]; exact memcmp_magic _ rfl
  have hz : isZeroArray (((secnonceObject k1 k2 P).drop 4).take 64) = false := by
    rw [Bool.eq_false_iff, Ne, isZeroArray_iff, e1, ← List.append_assoc,
      List.take_left' (by rw [List.length_append, beBytes_len, beBytes_len])]
    intro h
    apply hk
    constructor
    · exact (ZMod.val_eq_zero k1).1 (beBytes_all_zero (fn_lt k1) fun y hy => h y (by simp [hy]))
    · exact (ZMod.val_eq_zero k2).1 (beBytes_all_zero (fn_lt k2) fun y hy => h y (by simp [hy]))
  refine ⟨geFromBytes (keyObject P), ?_, geFromBytes_keyObject hP⟩
  rw [secnonceLoad, if_neg (by simpa using hm), hz, if_neg (by decide), e1, e2, e3,
    scSetB32_append (beBytes_len _ _), scSetB32_append (beBytes_len _ _), scSetB32_beBytes, scSetB32_beBytes]

theorem pubnonceSave_obj {A B : Pt} (hA : A ≠ 0) (hB : B ≠ 0) {a b : Ge Fp} (ha : GeRep 7 a A)
    (hb : GeRep 7 b B) : pubnonceSave a b = pubnonceObject A B := by
  unfold pubnonceSave pubnonceObject
  rw [geToBytes_rep ha hA, geToBytes_rep hb hB]
  rfl

theorem pubnonceLoad_obj {A B : Pt} (hA : A ≠ 0) (hB : B ≠ 0) :
    ∃ a b, pubnonceLoad (pubnonceObject A B) = some (a, b) ∧ GeRep 7 a A ∧ GeRep 7 b B := by
  have e0 : pubnonceObject A B = pubnonceMagic ++ (keyObject A ++ keyObject B) := by
    unfold pubnonceObject pubnonceMagic
    simp only [List.append_assoc]
  have e1 : (pubnonceObject A B).drop 4 = keyObject A ++ keyObject B := by rw [e0]; rfl
  have e2 : (pubnonceObject A B).drop 68 = keyObject B := by
    rw [← List.drop_drop (i := 64) (j := 4), e1, List.drop_left' (keyObject_length _)]
  have hm : memcmpVar (pubnonceObject A B) pubnonceMagic 4 = 0 := by
    rw [e0]; exact memcmp_magic _ rfl
  refine ⟨geFromBytes (keyObject A ++ keyObject B), geFromBytes (keyObject B), ?_, geFromBytes_key hA _,
    geFromBytes_keyObject hB⟩
  rw [pubnonceLoad, if_neg (by simpa using hm), e1, e2]

theorem aggnonceSave_obj {A B : Pt} {a b : Ge Fp} (ha : GeRep 7 a A) (hb : GeRep 7 b B) :
    aggnonceSave a b = aggnonceObject A B := by
  unfold aggnonceSave aggnonceObject
  rw [geToBytesExt_rep ha, geToBytesExt_rep hb]
  rfl

theorem aggnonceLoad_obj (A B : Pt) :
    ∃ a b, aggnonceLoad (aggnonceObject A B) = some (a, b) ∧ GeRep 7 a A ∧ GeRep 7 b B := by
  have e0 : aggnonceObject A B = aggnonceMagic ++ (keyObject A ++ keyObject B) := by
    unfold aggnonceObject aggnonceMagic
    simp only [List.append_assoc]
  have e1 : (aggnonceObject A B).drop 4 = keyObject A ++ keyObject B := by rw [e0]; rfl
  have e2 : (aggnonceObject A B).drop 68 = keyObject B ++ [] := by
    rw [← List.drop_drop (i := 64) (j := 4), e1, List.drop_left' (keyObject_length _), List.append_nil]
  have hm : memcmpVar (aggnonceObject A B) aggnonceMagic 4 = 0 := by
    rw [e0]; exact memcmp_magic _ rfl
  refine ⟨geFromBytesExt (keyObject A ++ keyObject B), geFromBytesExt (keyObject B ++ []), ?_,
    geFromBytesExt_key A _, geFromBytesExt_key B _⟩
  rw [aggnonceLoad, if_neg (by simpa using hm), e1, e2]

theorem sessionLoad_obj (par : UInt8) {r : Bytes} (hr : r.length = 32) (b e s : Fn) :
    sessionLoad (sessionObject par r b e s) = some ⟨par.toNat, r, b, e, s⟩ := by
  have e0 : sessionObject par r b e s = sessionMagic ++ ([par] ++ (r ++ (beBytes 32 b.val ++
      (beBytes 32 e.val ++ beBytes 32 s.val)))) := by
    unfold sessionObject sessionMagic
    simp only [List.append_assoc]
  have e1 : (sessionObject par r b e s).drop 4 = [par] ++ (r ++ (beBytes 32 b.val ++
      (beBytes 32 e.val ++ beBytes 32 s.val))) := by rw [e0]; rfl
  have e2 : (sessionObject par r b e s).drop 5 = r ++ (beBytes 32 b.val ++
      (beBytes 32 e.val ++ beBytes 32 s.val)) := by
    rw [← List.drop_drop (i := 1) (j := 4), e1]; rfl
  have e3 : (sessionObject par r b e s).drop 37 = beBytes 32 b.val ++
      (beBytes 32 e.val ++ beBytes 32 s.val) := by
    rw [← List.drop_drop (i := 32) (j := 5), e2, List.drop_left' hr]
  have e4 : (sessionObject par r b e s).drop 69 = beBytes 32 e.val ++ beBytes 32 s.val := by
    rw [← List.drop_drop (i := 32) (j := 37), e3, List.drop_left' (beBytes_len _ _)]
  have e5 : (sessionObject par r b e s).drop 101 = beBytes 32 s.val := by
    rw [← List.drop_drop (i := 32) (j := 69), e4, List.drop_left' (beBytes_len _ _)]
  have e6 : (sessionObject par r b e s).getD 4 0 = par := by
    rw [List.getD_eq_getElem?_getD, ← Nat.add_zero 4, ← List.getElem?_drop, e1]; rfl
  have hm : memcmpVar (sessionObject par r b e s) sessionMagic 4 = 0 := by
    rw [e0]; exact memcmp_magic _ rfl
  rw [sessionLoad, if_neg (by simpa using hm), e6, e2, e3, e4, e5, List.take_left' hr,
    scSetB32_append (beBytes_len _ _), scSetB32_append (beBytes_len _ _), scSetB32_beBytes,
    scSetB32_beBytes, scSetB32_beBytes]

theorem partialSigSave_obj (s : Fn) : partialSigSave s = partialSigObject s := rfl

theorem partialSigLoad_obj (s : Fn) : partialSigLoad (partialSigObject s) = some s := by
  have hm : memcmpVar (partialSigObject s) partialSigMagic 4 = 0 := memcmp_magic _ rfl
  have e1 : (partialSigObject s).drop 4 = beBytes 32 s.val := rfl
  rw [partialSigLoad, if_neg (by simpa using hm), e1, scSetB32_beBytes]

/-! ### Sessions -/

theorem noncecoefMid_ok :
    Hash.toList (Hash.fastCompress Hash.h0 (Hash.fastSha noncecoefTag ++ Hash.fastSha noncecoefTag)) =
      musigNoncecoefMid := by decide +kernel

theorem geSerializeExt_eq {a : Ge Fp} {A : Pt} (h : GeRep 7 a A) :
    musigGeSerializeExt a = compressedExt A := by
  unfold musigGeSerializeExt compressedExt
  by_cases hA : A = 0
  · rw [if_pos (h.inf_iff.2 hA), if_pos hA]; rfl
  · rw [if_neg (by rw [geRep_inf h hA]; decide), if_neg hA, serialize_compressed h hA (by simp [zeros]),
      show (zeros 33).drop 33 = [] by simp [zeros], List.append_nil]

theorem compressedExt_length (A : Pt) : (compressedExt A).length = 33 := by
  unfold compressedExt
  split
  · simp
  · exact compressed_length A

theorem computeNoncehash_eq {a b : Ge Fp} {A B : Pt} (ha : GeRep 7 a A) (hb : GeRep 7 b B) (Q : Pt)
    {m : Bytes} (hm : m.length = 32) :
    (scSetB32 (computeNoncehash a b (xonly Q) m)).1 = nonceCoef A B Q m := by
  unfold computeNoncehash nonceCoef
  simp only
  rw [geSerializeExt_eq ha, geSerializeExt_eq hb, take32 (xonly_length Q), take32 hm]
  have := (Hash.finalize_spec (Hash.write_absorbed (Hash.write_absorbed (Hash.write_absorbed
    (Hash.write_absorbed (midstate_absorbed Hash.uninit Hash.uninit_buf noncecoefMid_ok)
      (compressedExt A)) (compressedExt B)) (xonly Q)) m)).1
  rw [this, ← scSetB32_hash, taggedHash]
  simp only [List.append_assoc]

theorem effectiveNonce_rep {a b : Ge Fp} {A B : Pt} (ha : GeRep 7 a A) (hb : GeRep 7 b B) (k : Fn) :
    GejRep 7 (effectiveNonce a b k) (A + k • B) := by
  have h := ecmult_rep (gejSetGe_rep hb) k none
  rw [Option.getD_none, fn_zero_smul, add_zero] at h
  rw [add_comm]
  exact gejAddGeVar_rep neg7_not_cube h ha

theorem finalNonce_ne (A B Q : Pt) (m : Bytes) : finalNonce A B Q m ≠ 0 := by
  unfold finalNonce
  simp only
  split
  · exact G_ne_zero
  · assumption

theorem nonceProcessInternal_eq {a b : Ge Fp} {A B : Pt} (ha : GeRep 7 a A) (hb : GeRep 7 b B) (Q : Pt)
    {m : Bytes} (hm : m.length = 32) :
    nonceProcessInternal a b (xonly Q) m =
      (ptY (finalNonce A B Q m) % 2, xonly (finalNonce A B Q m), nonceCoef A B Q m) := by
  unfold nonceProcessInternal
  simp only
  rw [computeNoncehash_eq ha hb Q hm]
  have h1 := geSetGej_rep (effectiveNonce_rep ha hb (nonceCoef A B Q m))
  generalize geSetGej (effectiveNonce a b (nonceCoef A B Q m)) = pt at h1 ⊢
  have h2 : GeRep 7 (if pt.infinity then geConstG else pt) (finalNonce A B Q m) := by
    unfold finalNonce
    simp only
    rw [val_smul]
    by_cases h0 : A + nonceCoef A B Q m • B = 0
    · rw [if_pos h0, if_pos (h1.inf_iff.2 h0)]
      exact geConstG_rep
    · rw [if_neg h0, if_neg (by rw [geRep_inf h1 h0]; decide)]
      exact h1
  generalize (if pt.infinity = true then geConstG else pt : Ge Fp) = q at h2 ⊢
  have hne := finalNonce_ne A B Q m
  have hx := feGetB32_rep h2 hne
  have hy := geRep_y h2 hne
  rw [show (FeOps.normalize q.x : Fp) = q.x from rfl, show (FeOps.normalize q.y : Fp) = q.y from rfl, hx]
  have : (if feIsOdd q.y then 1 else 0 : ℕ) = ptY (finalNonce A B Q m) % 2 := by
    rw [← hy]
    by_cases ho : q.y.val % 2 = 1
    · rw [if_pos ((feIsOdd_iff _).2 ho), ho]
    · rw [if_neg (fun h => ho ((feIsOdd_iff _).1 h))]; omega
  rw [this]

theorem odd_sign {a : Ge Fp} {Q : Pt} (h : GeRep 7 a Q) (hQ : Q ≠ 0) (x : Fn) :
    (if feIsOdd a.y then -x else x) = signY Q * x := by
  unfold signY
  by_cases ho : ptY Q % 2 = 1
  · rw [if_pos ((feIsOdd_iff _).2 (by rw [geRep_y h hQ]; exact ho)), if_pos ho, neg_one_mul]
  · rw [if_neg (fun e => ho (by rw [← geRep_y h hQ]; exact (feIsOdd_iff _).1 e)), if_neg ho, one_mul]

theorem nonceProcess_eq {Ps : List Pt} {c : KeyaggCtx} (hc : KeyaggOk c) (A B : Pt) {m : Bytes}
    (hm : m.length = 32) (old : Bytes) :
    musigNonceProcess (some old) (some (aggnonceObject A B)) (some m) (some (cacheObject Ps c)) =
      ⟨1, 0, some (sessionFor A B c m)⟩ := by
  obtain ⟨pk, sec, hl, hpk, -⟩ := keyaggCacheLoad_obj (Ps := Ps) hc
  obtain ⟨a, b, hl2, ha, hb⟩ := aggnonceLoad_obj A B
  unfold musigNonceProcess
  simp only
  rw [hl, hl2]
  simp only
  unfold musigSession
  simp only
  rw [feGetB32_rep hpk hc.finite, nonceProcessInternal_eq ha hb c.Q hm]
  simp only
  rw [challenge_eq (by rw [xonly_length]), take32 (xonly_length _), take32 hm]
  have hs : (if (!scIsZero c.tacc) = true then
      (if feIsOdd pk.y = true then
        -(((schnorrChallenge (xonly (finalNonce A B c.Q m)) c.Q m : ℕ) : Fn) * c.tacc)
       else ((schnorrChallenge (xonly (finalNonce A B c.Q m)) c.Q m : ℕ) : Fn) * c.tacc) else 0) =
      musigChallenge A B c.Q m * (signY c.Q * c.tacc) := by
    rw [odd_sign hpk hc.finite, ← musigChallenge]
    by_cases h0 : c.tacc = 0
    · rw [if_neg, h0]
      · ring
      · rw [Bool.not_eq_true', Bool.eq_false_iff, Ne, scIsZero_iff, not_not]; exact h0
    · rw [if_pos]
      · ring
      · rw [Bool.not_eq_true', Bool.eq_false_iff, Ne, scIsZero_iff]; exact h0
  rw [hs]
  rfl

/-! ### Partial signatures -/

theorem acc_sign {c : KeyaggCtx} (hc : KeyaggOk c) {pk : Ge Fp} (hpk : GeRep 7 pk c.Q) (x : Fn) :
    (if (if feIsOdd pk.y then 1 else 0) ≠ (if c.gacc = 1 then 0 else 1 : ℕ) then -x else x) =
      signY c.Q * c.gacc * x := by
  unfold signY
  have h1 : ¬ (-1 : Fn) = 1 := fun h => one_ne_neg_one h.symm
  by_cases ho : ptY c.Q % 2 = 1
  · have hf : feIsOdd pk.y = true := (feIsOdd_iff _).2 (by rw [geRep_y hpk hc.finite]; exact ho)
    rcases hc.sign with e | e
    · simp [hf, ho, e]
    · simp [hf, ho, e, h1]
  · have hf : ¬ feIsOdd pk.y = true := fun e => ho (by rw [← geRep_y hpk hc.finite]; exact (feIsOdd_iff _).1 e)
    rcases hc.sign with e | e
    · simp [hf, ho, e]
    · simp [hf, ho, e, h1]

theorem par_toNat (par : UInt8) : par.toNat ≠ 0 ↔ par ≠ 0 := by
  rw [Ne, Ne, not_iff_not, ← UInt8.toNat_inj]; rfl

theorem partialSignValue_eq {Ps : List Pt} {c : KeyaggCtx} (hc : KeyaggOk c) {pk sec own : Ge Fp}
    (hpk : GeRep 7 pk c.Q) (hsec : GeRep 7 sec (secondKey Ps)) {d : Fn} (hd : d ≠ 0)
    (hown : GeRep 7 own (d • G)) (par : UInt8) (r : Bytes) (b e s k1 k2 : Fn) :
    partialSignValue d k1 k2 own ⟨pk, sec, keysHash Ps, c.tacc, if c.gacc = 1 then 0 else 1⟩
      ⟨par.toNat, r, b, e, s⟩ = partialValue Ps c par b e d k1 k2 := by
  unfold partialSignValue partialValue keyaggCoef
  simp only
  rw [val_smul]
  rw [acc_sign hc hpk, keyaggCoefInternal_eq hown (smul_G_ne hd) hsec]
  unfold paritySign
  by_cases hp : par = 0
  · have : ¬ par.toNat ≠ 0 := by rw [par_toNat]; simpa using hp
    rw [if_neg this, if_neg this, if_pos hp]; ring
  · have : par.toNat ≠ 0 := by rw [par_toNat]; exact hp
    rw [if_pos this, if_pos this, if_neg hp]; ring

theorem geRep_same {a c : Ge Fp} {P : Pt} (ha : GeRep 7 a P) (hc : GeRep 7 c P) (hP : P ≠ 0) :
    FeOps.equal a.x c.x = true ∧ FeOps.equal a.y c.y = true := by
  rw [equal_iff, equal_iff]
  exact ⟨ZMod.val_injective p (by rw [geRep_x ha hP, geRep_x hc hP]),
    ZMod.val_injective p (by rw [geRep_y ha hP, geRep_y hc hP])⟩

theorem partialSign_eq {Ps : List Pt} {c : KeyaggCtx} (hc : KeyaggOk c) {d k1 k2 : Fn} (hd : d ≠ 0)
    (hk : ¬ (k1 = 0 ∧ k2 = 0)) (par : UInt8) {r : Bytes} (hr : r.length = 32) (b e s : Fn) (old : Bytes) :
    musigPartialSign (some old) (some (secnonceObject k1 k2 (d • G))) (some (keypairObject d))
      (some (cacheObject Ps c)) (some (sessionObject par r b e s)) =
      ⟨1, 0, (some (partialSigObject (partialValue Ps c par b e d k1 k2)), some (List.replicate 132 0))⟩ := by
  obtain ⟨pk, sec, hl, hpk, hsec⟩ := keyaggCacheLoad_obj (Ps := Ps) hc
  obtain ⟨own, hl2, hown⟩ := secnonceLoad_obj hk (smul_G_ne hd)
  obtain ⟨kp, hl3, hkp⟩ := keypairLoad_obj hd
  obtain ⟨h1, h2⟩ := geRep_same hown hkp (smul_G_ne hd)
  unfold musigPartialSign
  simp only
  rw [hl2]
  simp only
  unfold partialSignWith
  simp only
  rw [hl3]
  simp only
  rw [h1, h2, hl, sessionLoad_obj par hr]
  simp only
  rw [partialSignValue_eq hc hpk hsec hd hown, partialSigSave_obj, if_neg (by decide), if_neg (by decide)]
  rfl

theorem partialSigCheck_iff {Ps : List Pt} {c : KeyaggCtx} (hc : KeyaggOk c) {pk sec own n0 n1 : Ge Fp}
    (hpk : GeRep 7 pk c.Q) (hsec : GeRep 7 sec (secondKey Ps)) {P A B : Pt} (hP : P ≠ 0)
    (hown : GeRep 7 own P) (h0 : GeRep 7 n0 A) (h1 : GeRep 7 n1 B) (par : UInt8) (r : Bytes) (b e s sv : Fn) :
    partialSigCheck sv n0 n1 own ⟨pk, sec, keysHash Ps, c.tacc, if c.gacc = 1 then 0 else 1⟩
      ⟨par.toNat, r, b, e, s⟩ = true ↔
      sv • G = paritySign par • (A + b • B) + (e * keyCoef Ps P * (signY c.Q * c.gacc)) • P := by
  unfold partialSigCheck keyaggCoef
  simp only
  rw [acc_sign hc hpk, keyaggCoefInternal_eq hown hP hsec]
  have hr := effectiveNonce_rep h0 h1 b
  have hr' : GejRep 7 (if par.toNat ≠ 0 then gejNeg (effectiveNonce n0 n1 b) else effectiveNonce n0 n1 b)
      (paritySign par • (A + b • B)) := by
    unfold paritySign
    by_cases hp : par = 0
    · have : ¬ par.toNat ≠ 0 := by rw [par_toNat]; simpa using hp
      rw [if_neg this, if_pos hp, one_smul]
      exact hr
    · have : par.toNat ≠ 0 := by rw [par_toNat]; exact hp
      rw [if_pos this, if_neg hp, neg_smul, one_smul]
      exact gejNeg_rep hr
  have he := ecmult_rep (gejSetGe_rep hown) (signY c.Q * c.gacc * (e * keyCoef Ps P)) (some (-sv))
  have := (gejAddVar_rep neg7_not_cube he hr').inf_iff
  rw [this, Option.getD_some, neg_smul, mul_comm (signY c.Q * c.gacc)]
  constructor
  · intro h
    rw [eq_comm, ← sub_eq_zero, ← h]
    abel
  · intro h
    rw [h]
    abel

theorem sigVerify_eq {Ps : List Pt} {c : KeyaggCtx} (hc : KeyaggOk c) {P A B : Pt} (hP : P ≠ 0)
    (hA : A ≠ 0) (hB : B ≠ 0) (par : UInt8) {r : Bytes} (hr : r.length = 32) (b e s sv : Fn) :
    ∃ v : Bool, musigPartialSigVerify (some (partialSigObject sv)) (some (pubnonceObject A B))
      (some (keyObject P)) (some (cacheObject Ps c)) (some (sessionObject par r b e s)) = ⟨cInt v, 0, ()⟩ ∧
      (v = true ↔
        sv • G = paritySign par • (A + b • B) + (e * keyCoef Ps P * (signY c.Q * c.gacc)) • P) := by
  obtain ⟨pk, sec, hl, hpk, hsec⟩ := keyaggCacheLoad_obj (Ps := Ps) hc
  obtain ⟨n0, n1, hl2, h0, h1⟩ := pubnonceLoad_obj hA hB
  obtain ⟨k1, k2, -⟩ := pubkeyLoad_obj hP
  refine ⟨_, ?_, partialSigCheck_iff hc hpk hsec hP k2 h0 h1 par r b e s sv⟩
  unfold musigPartialSigVerify
  simp only
  rw [sessionLoad_obj par hr, hl2, k1, hl, partialSigLoad_obj]
  rfl

end Secp
