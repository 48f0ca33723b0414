import Verif.Model.VerifyApi
import Verif.Proof.EllswiftEnc
import Verif.Proof.EllswiftInv
import Verif.Proof.MusigKeyagg

/-! # The checks of `Model/VerifyApi` -/

namespace Secp
open Model Spec FeOps

/-! ### Hash -/

namespace Hash

theorem write_bytes (h : Sha) (d : Bytes) : (write h d).bytes = h.bytes + UInt64.ofNat d.length := rfl

theorem write_toNat {h : Sha} {d : Bytes} (hl : h.bytes.toNat + d.length < 2 ^ 64) :
    (write h d).bytes.toNat = h.bytes.toNat + d.length := by
  rw [write_bytes, UInt64.toNat_add, UInt64.toNat_ofNat', Nat.mod_eq_of_lt (by omega : d.length < 2 ^ 64),
    Nat.mod_eq_of_lt hl]

theorem writeV_eq {h : Sha} {d : Bytes} (hl : h.bytes.toNat + d.length < 2 ^ 64) :
    writeV h d = some (write h d) := by
  unfold writeV
  simp only
  rw [if_pos (by rw [write_toNat hl]; omega)]

theorem writesV_eq : ∀ (ds : List Bytes) (h : Sha), h.bytes.toNat + ds.flatten.length < 2 ^ 64 →
    writesV h ds = some (ds.foldl write h) ∧
      (ds.foldl write h).bytes.toNat = h.bytes.toNat + ds.flatten.length
  | [], h, _ => ⟨rfl, by simp⟩
  | d :: ds, h, hl => by
    rw [List.flatten_cons, List.length_append] at hl
    have hw := write_toNat (h := h) (d := d) (by omega)
    obtain ⟨e1, e2⟩ := writesV_eq ds (write h d) (by rw [hw]; omega)
    rw [writesV, writeV_eq (by omega)]
    refine ⟨e1, ?_⟩
    rw [List.foldl_cons, e2, hw, List.flatten_cons, List.length_append, Nat.add_assoc]

theorem finalizeV_eq {h : Sha} (hl : h.bytes.toNat < 2 ^ 61) : finalizeV h = some (finalize h) := by
  unfold finalizeV finalize
  rw [if_pos hl]
  simp only
  generalize hp : ((0x80 : UInt8) :: List.replicate 63 0).take (1 + ((119 - h.bytes.toNat % 64) % 64)) = pd
  have hpl : pd.length ≤ 64 := by rw [← hp, List.length_take]; simp
  generalize hs : writeBe32 (h.bytes >>> 29).toUInt32 ++ writeBe32 (h.bytes <<< 3).toUInt32 = sd
  have hsl : sd.length = 8 := by rw [← hs]; rfl
  have h1 : h.bytes.toNat + pd.length < 2 ^ 64 := by omega
  rw [writeV_eq h1]
  simp only [Option.bind_eq_bind, Option.bind_some]
  rw [writeV_eq (by rw [write_toNat h1]; omega)]
  rfl

theorem finalizeV_none {h : Sha} (hl : 2 ^ 61 ≤ h.bytes.toNat) : finalizeV h = none := by
  unfold finalizeV
  rw [if_neg (by omega)]

theorem finalize_bytes (h : Sha) : (finalize h).2.bytes = h.bytes +
    UInt64.ofNat (((0x80 : UInt8) :: List.replicate 63 0).take (1 + ((119 - h.bytes.toNat % 64) % 64))).length +
    8 := rfl

end Hash

/-! ### ElligatorSwift -/

theorem xswiftecFracVarV_eq (u t : Fp) : xswiftecFracVarV u t = some (xswiftecFracVar u t) := by
  obtain ⟨h1, h2, h3⟩ := xswiftecFracVar_spec u t
  rw [← h2] at h3
  have hc := (geXFracOnCurveVar_iff (xswiftecFracVar u t).1 h1).2 h3
  clear h1 h2 h3
  revert hc
  unfold xswiftecFracVarV xswiftecFracVar
  dsimp only
  split_ifs <;> intro hc
  all_goals first | rfl | (rename_i h; exact absurd hc h)

theorem xswiftecInvVarV_eq {x : Fp} (u : Fp) {c : ℕ} (hx : OnCurve x) (hc : c < 8) :
    xswiftecInvVarV x u c = some (xswiftecInvVar x u c) := by
  unfold xswiftecInvVarV xswiftecInvVar
  have hx' : geXOnCurveVar x = true := (geXOnCurveVar_iff x).2 hx
  dsimp only
  rw [if_neg (by omega), show normalizeWeak x = x from rfl, show normalizeWeak u = u from rfl, hx']
  simp only [Bool.not_true, Bool.false_eq_true, if_false]
  by_cases hb : c &&& 2 = 0
  · rw [if_pos hb, if_pos hb]
    have e1 : negate (add x u) 2 = -u - x := by simp only [negate, add]; ring
    have e2 : add (negate (sqr (-u - x)) 1) (mul u x) = -(u ^ 2 + u * x + x ^ 2) := by
      simp only [negate, add, sqr, mul]; ring
    have e3 : addInt (mul (sqr u) u) curveB = u ^ 3 + 7 := by
      simp only [mul, sqr, addInt, curveB]; push_cast; ring
    rw [e1, e2, e3]
    by_cases c1 : geXOnCurveVar (-u - x) = true
    · rw [if_pos c1, if_pos c1]
    rw [if_neg c1, if_neg c1]
    rw [geXOnCurveVar_iff] at c1
    have hq0 : u ^ 2 + u * x + x ^ 2 ≠ 0 := by
      intro h0
      obtain ⟨y, hy⟩ := hx
      exact c1 ⟨y, by rw [hy]; linear_combination (2 * x + u) * h0⟩
    rw [if_neg (show ¬ normalizesToZero (-(u ^ 2 + u * x + x ^ 2)) = true from fun h => hq0 (neg_eq_zero.1 (by simpa only [normalizesToZero, decide_eq_true_eq] using h)))]
    by_cases c2 : (!feIsSquareVar (mul (-(u ^ 2 + u * x + x ^ 2)) (u ^ 3 + 7))) = true
    · rw [if_pos c2, if_pos c2]
    rw [if_neg c2, if_neg c2]
    have hsq : IsSquare (-(u ^ 2 + u * x + x ^ 2) * (u ^ 3 + 7)) := feIsSquareVar_not c2
    have hss : IsSquare ((-(u ^ 2 + u * x + x ^ 2))⁻¹ * (u ^ 3 + 7)) := by
      obtain ⟨q, hq⟩ := hsq
      refine ⟨q / (u ^ 2 + u * x + x ^ 2), ?_⟩
      rw [div_mul_div_comm, ← hq]
      field_simp
    have : (FeOps.sqrt (mul (FeOps.invVar (-(u ^ 2 + u * x + x ^ 2))) (u ^ 3 + 7))).2 = true :=
      (sqrt_snd _).2 hss
    rw [this]
    rfl
  · rw [if_neg hb, if_neg hb]
    generalize add (negate u 1) x = s
    by_cases c1 : (!feIsSquareVar s) = true
    · rw [if_pos c1, if_pos c1]
    rw [if_neg c1, if_neg c1]
    generalize negate (mul (add (mulInt (mul s (sqr u)) 3)
        (addInt (mulInt (mul (sqr u) u) 4) (4 * curveB))) s) 1 = q
    by_cases c2 : (!feIsSquareVar q) = true
    · rw [if_pos c2, if_pos c2]
    rw [if_neg c2, if_neg c2, (sqrt_snd q).2 (feIsSquareVar_not c2), (sqrt_snd s).2 (feIsSquareVar_not c1)]
    simp only [Bool.not_true, Bool.false_eq_true, if_false]
    split_ifs <;> rfl

theorem ellBranch_lt (bh : Bytes) (left : ℕ) : ellBranch bh left < 8 := by
  unfold ellBranch
  exact lt_of_le_of_lt Nat.and_le_right (by norm_num)

theorem ellswiftPrngV_eq {hasher : Hash.Sha} (hb : hasher.bytes = 128 ∨ hasher.bytes = 160) (cnt : UInt32) :
    ellswiftPrngV hasher cnt = some (ellswiftPrng hasher cnt) := by
  unfold ellswiftPrngV ellswiftPrng
  have hl : (prngBuf4 cnt).length = 4 := rfl
  have hb' : hasher.bytes.toNat ≤ 160 := by rcases hb with h | h <;> rw [h] <;> decide
  have h1 : hasher.bytes.toNat + (prngBuf4 cnt).length < 2 ^ 64 := by omega
  rw [Hash.writeV_eq h1]
  simp only [Option.bind_eq_bind, Option.bind_some]
  rw [Hash.finalizeV_eq (by rw [Hash.write_toNat h1]; omega)]
  simp only [Option.bind_some]
  rw [if_pos]
  rw [Hash.finalize_bytes, Hash.write_bytes, hl]
  rcases hb with h | h <;> rw [h] <;> decide +kernel

theorem ellPoolV_eq {hasher : Hash.Sha} (hb : hasher.bytes = 128 ∨ hasher.bytes = 160) (bh : Bytes) (left : ℕ)
    (cnt : UInt32) : ellPoolV hasher bh left cnt = some (ellPool hasher bh left cnt) := by
  unfold ellPoolV ellPool
  rw [ellswiftPrngV_eq hb]
  split_ifs <;> rfl

theorem loopV_spec {x : Fp} (hx : OnCurve x) {hasher : Hash.Sha}
    (hb : hasher.bytes = 128 ∨ hasher.bytes = 160) : ∀ (fuel : ℕ) (bh : Bytes) (left : ℕ) (cnt : UInt32),
    (∀ o, xelligatorswiftLoopV x hasher fuel bh left cnt = some o →
      o = xelligatorswiftLoop x hasher fuel bh left cnt) ∧
    (xelligatorswiftLoopV x hasher fuel bh left cnt = none →
      ∃ cnt, feSetB32Mod (ellswiftPrng hasher cnt) = 0)
  | 0, bh, left, cnt => ⟨fun o h => (Option.some.inj h).symm, fun h => by cases h⟩
  | fuel + 1, bh, left, cnt => by
    unfold xelligatorswiftLoopV xelligatorswiftLoop
    rw [ellPoolV_eq hb]
    simp only [Option.bind_eq_bind, Option.bind_some]
    rw [ellswiftPrngV_eq hb]
    simp only [Option.bind_some]
    generalize ellPool hasher bh left cnt = pool
    rw [xswiftecInvVarV_eq _ hx (ellBranch_lt _ _)]
    simp only [Option.bind_some]
    by_cases hu : normalizesToZero (feSetB32Mod (ellswiftPrng hasher pool.2.2)) = true
    · rw [if_pos hu]
      refine ⟨fun o h => (by cases h), fun _ => ⟨pool.2.2, ?_⟩⟩
      simpa [normalizesToZero] using hu
    · rw [if_neg hu]
      cases xswiftecInvVar x (feSetB32Mod (ellswiftPrng hasher pool.2.2)) (ellBranch pool.1 (pool.2.1 - 1)) with
      | some t => exact ⟨fun o h => (Option.some.inj h).symm, fun h => by cases h⟩
      | none => exact loopV_spec hx hb fuel _ _ _

theorem elligatorswiftVarV_spec {a : Ge Fp} (hx : OnCurve a.x) {hasher : Hash.Sha}
    (hb : hasher.bytes = 128 ∨ hasher.bytes = 160) (fuel : ℕ) :
    (∀ o, elligatorswiftVarV fuel a hasher = some o → o = elligatorswiftVar fuel a hasher) ∧
    (elligatorswiftVarV fuel a hasher = none → ∃ cnt, feSetB32Mod (ellswiftPrng hasher cnt) = 0) := by
  obtain ⟨h1, h2⟩ := loopV_spec hx hb fuel [] 0 0
  unfold elligatorswiftVarV elligatorswiftVar xelligatorswiftVar
  cases h : xelligatorswiftLoopV a.x hasher fuel [] 0 0 with
  | none => exact ⟨fun o h' => (by cases h'), fun _ => h2 h⟩
  | some o =>
    rw [← h1 o h]
    cases o with
    | none => exact ⟨fun o h => (Option.some.inj h).symm, fun h => by cases h⟩
    | some r => exact ⟨fun o h => (Option.some.inj h).symm, fun h => by cases h⟩

theorem onCurve_of_rep {a : Ge Fp} {P : Pt} (h : GeRep 7 a P) (hP : P ≠ 0) : OnCurve a.x := by
  obtain ⟨hn, -⟩ := h.elim (geRep_inf h hP)
  exact ⟨a.y, nonsingular_eq hn⟩

/-! ### Recovery -/

theorem ecdsaSigRecoverV_eq (r s m : Fn) (recid : ℕ) :
    ecdsaSigRecoverV r s m recid = some (ecdsaSigRecover r s m recid) := by
  have hlt : beNat ((scGetB32 r).take 32) < p := by
    rw [List.take_of_length_le (by rw [scGetB32_length]), beNat_scGetB32]
    exact lt_trans (ZMod.val_lt r) n_lt_p
  unfold ecdsaSigRecoverV ecdsaSigRecover
  rw [feSetB32Limit_lt hlt]
  simp only [Bool.not_true, Bool.false_eq_true, if_false]
  split
  · rfl
  cases recoverX r recid with
  | none => rfl
  | some fx =>
    simp only
    split_ifs <;> rfl

/-! ### Keys -/

theorem pubkeyLoad_inf (o : Bytes) : (pubkeyLoad o).1.infinity = false := rfl

theorem geEvenYV_eq {a : Ge Fp} (h : a.infinity = false) : geEvenYV a = some (geEvenY a) := by
  unfold geEvenYV; rw [h]; rfl

theorem serialize33_inf {a : Ge Fp} (h : a.infinity = false) :
    ∃ b, eckeyPubkeySerialize a (zeros 33) 33 true = (b, 33, true) ∧ b.length = 33 := by
  unfold eckeyPubkeySerialize
  rw [h]
  simp only [Bool.false_eq_true, if_false, if_true]
  refine ⟨_, rfl, ?_⟩
  simp [put, zeros, feGetB32_length]

theorem ecPubkeySerialize33 (pk : Bytes) :
    let r := ecPubkeySerialize (some (zeros 33)) (some 33) (some pk) ecCompressed
    r.ret ≠ 0 → r.val.2 = some 33 ∧ (r.val.1.getD []).length = 33 ∧ (pubkeyLoad pk).2 = true := by
  intro r
  have hr : r = if (pubkeyLoad pk).2 then
      (let r := eckeyPubkeySerialize (pubkeyLoad pk).1 (zeros 33) 33 true
       if r.2.2 then ⟨1, 0, (some r.1, some r.2.1)⟩ else ⟨0, 0, (some r.1, some 0)⟩)
      else ⟨0, 1, (some (zeros 33), some 0)⟩ := rfl
  obtain ⟨b, e, hl⟩ := serialize33_inf (pubkeyLoad_inf pk)
  rw [hr, e]
  by_cases h : (pubkeyLoad pk).2 = true
  · rw [if_pos h]
    exact fun _ => ⟨rfl, hl, h⟩
  · rw [if_neg h]
    exact fun h => absurd rfl h

/-! ### MuSig -/

theorem pksHashLoopV_eq : ∀ (pks : List Bytes) (sha : Hash.Sha), sha.bytes.toNat + 33 * pks.length < 2 ^ 64 →
    pksHashLoopV pks sha = some (pksHashLoop pks sha) ∧
    ∀ sha', pksHashLoop pks sha = some sha' → sha'.bytes.toNat = sha.bytes.toNat + 33 * pks.length ∧
      ∀ pk ∈ pks, (pubkeyLoad pk).2 = true
  | [], sha, _ => ⟨rfl, fun sha' h => by obtain rfl := Option.some.inj h; exact ⟨rfl, by simp⟩⟩
  | pk :: pks, sha, hl => by
    rw [List.length_cons] at hl
    have h33 := ecPubkeySerialize33 pk
    unfold pksHashLoopV pksHashLoop
    revert h33
    dsimp only
    generalize ecPubkeySerialize (some (zeros 33)) (some 33) (some pk) ecCompressed = r
    intro h33
    by_cases h0 : r.ret = 0
    · rw [if_pos h0, if_pos h0]
      exact ⟨rfl, fun sha' h => by cases h⟩
    obtain ⟨g1, g2, g3⟩ := h33 h0
    have hw : sha.bytes.toNat + (r.val.1.getD []).length < 2 ^ 64 := by omega
    have hb := Hash.write_toNat hw
    rw [if_neg h0, if_neg h0, if_neg (by rw [g1]; simp), Hash.writeV_eq hw]
    obtain ⟨i1, i2⟩ := pksHashLoopV_eq pks (Hash.write sha (r.val.1.getD [])) (by rw [hb]; omega)
    refine ⟨i1, fun sha' h => ?_⟩
    obtain ⟨j1, j2⟩ := i2 sha' h
    refine ⟨by rw [j1, hb, List.length_cons]; omega, fun q hq => ?_⟩
    rcases List.mem_cons.1 hq with rfl | hq
    · exact g3
    · exact j2 q hq

theorem computePksHashV_eq {pks : List Bytes} (hl : 33 * pks.length < 2 ^ 60) :
    computePksHashV pks = some (computePksHash pks) ∧
      (∀ h, computePksHash pks = some h → ∀ pk ∈ pks, (pubkeyLoad pk).2 = true) := by
  have hs : (shaMidstate Hash.uninit keyaggListMid).bytes.toNat = 64 := rfl
  obtain ⟨h1, h2⟩ := pksHashLoopV_eq pks (shaMidstate Hash.uninit keyaggListMid) (by rw [hs]; omega)
  unfold computePksHashV computePksHash
  rw [h1]
  cases h : pksHashLoop pks (shaMidstate Hash.uninit keyaggListMid) with
  | none => exact ⟨rfl, fun h h' => by cases h'⟩
  | some sha =>
    obtain ⟨j1, j2⟩ := h2 sha h
    rw [hs] at j1
    simp only
    rw [Hash.finalizeV_eq (by rw [j1]; omega)]
    exact ⟨rfl, fun _ _ => j2⟩

theorem keyaggCoefInternalV_eq (ph : Bytes) {a : Ge Fp} (h : a.infinity = false) (sec : Ge Fp) :
    keyaggCoefInternalV ph a sec = some (keyaggCoefInternal ph a sec) := by
  obtain ⟨b, e, hl⟩ := serialize33_inf h
  unfold keyaggCoefInternalV keyaggCoefInternal
  rw [h, e]
  simp only [Bool.false_eq_true, if_false]
  split
  · rfl
  have hs : (shaMidstate Hash.uninit keyaggCoefMid).bytes.toNat = 64 := rfl
  have h1 : (shaMidstate Hash.uninit keyaggCoefMid).bytes.toNat + (ph.take 32).length < 2 ^ 64 := by
    rw [hs, List.length_take]; omega
  have h32 : (ph.take 32).length ≤ 32 := by rw [List.length_take]; omega
  rw [Hash.writeV_eq h1]
  simp only [Option.bind_eq_bind, Option.bind_some, Bool.true_and, beq_self_eq_true, if_true]
  have hw := Hash.write_toNat h1
  rw [hs] at hw
  have h2 : (Hash.write (shaMidstate Hash.uninit keyaggCoefMid) (ph.take 32)).bytes.toNat + b.length < 2 ^ 64 := by
    rw [hw, hl]; omega
  rw [Hash.writeV_eq h2]
  simp only [Option.bind_some]
  rw [Hash.finalizeV_eq (by rw [Hash.write_toNat h2, hw, hl]; omega)]
  rfl

theorem multiSimpleLoop_congr {cb cb' : MultiCallback} : ∀ (k idx : ℕ) (r : Gej Fp),
    (∀ i, idx ≤ i → i < idx + k → cb i = cb' i) → multiSimpleLoop cb k idx r = multiSimpleLoop cb' k idx r
  | 0, _, _, _ => rfl
  | k + 1, idx, r, h => by
    unfold multiSimpleLoop
    rw [h idx (le_refl _) (by omega)]
    cases cb' idx with
    | none => rfl
    | some q => exact multiSimpleLoop_congr k (idx + 1) _ fun i h1 h2 => h i (by omega) (by omega)

theorem multiNull_congr {cb cb' : MultiCallback} {k : ℕ} (h : ∀ i < k, cb i = cb' i) :
    ecmultMultiVarNull none cb k = ecmultMultiVarNull none cb' k := by
  unfold ecmultMultiVarNull ecmultMultiSimpleVar
  rw [multiSimpleLoop_congr k 0 _ fun i _ hi => h i (by omega)]

theorem multiSimpleLoop_total {cb : MultiCallback} (h : ∀ i, cb i ≠ none) : ∀ (k idx : ℕ) (r : Gej Fp),
    multiSimpleLoop cb k idx r ≠ none
  | 0, _, _ => by simp [multiSimpleLoop]
  | k + 1, idx, r => by
    unfold multiSimpleLoop
    cases e : cb idx with
    | none => exact absurd e (h idx)
    | some q => exact multiSimpleLoop_total h k (idx + 1) _

theorem multiNull_total {cb : MultiCallback} (h : ∀ i, cb i ≠ none) (k : ℕ) :
    ecmultMultiVarNull none cb k ≠ none := by
  unfold ecmultMultiVarNull ecmultMultiSimpleVar
  split_ifs
  · simp
  · simp
  · exact multiSimpleLoop_total h _ _ _

theorem aggCallbackV_eq {pks : List Bytes} (h : ∀ pk ∈ pks, (pubkeyLoad pk).2 = true) (ph : Bytes) (sec : Ge Fp)
    {i : ℕ} (hi : i < pks.length) : pubkeyAggCallbackV pks ph sec i = pubkeyAggCallback pks ph sec i := by
  unfold pubkeyAggCallbackV pubkeyAggCallback
  have hm : pks.getD i [] ∈ pks := by
    rw [List.getD_eq_getElem?_getD, List.getElem?_eq_getElem hi]; exact List.getElem_mem hi
  simp only
  rw [h _ hm, keyaggCoefInternalV_eq _ (pubkeyLoad_inf _)]
  rfl

theorem pubkeyAggWithV_spec {pks : List Bytes} (hl : 33 * pks.length < 2 ^ 60) (agg cache : Option Bytes)
    (sec : Ge Fp) :
    (computePksHash pks = none ∧ pubkeyAggWithV agg cache pks sec = some (pubkeyAggWith agg cache pks sec)) ∨
    ∃ h r, computePksHash pks = some h ∧
      ecmultMultiVarNull none (pubkeyAggCallback pks h sec) pks.length = some r ∧
      pubkeyAggWithV agg cache pks sec =
        if (geSetGej r).infinity = true then none else some (pubkeyAggWith agg cache pks sec) := by
  obtain ⟨h1, h2⟩ := computePksHashV_eq hl
  unfold pubkeyAggWithV pubkeyAggWith
  rw [h1]
  cases hc : computePksHash pks with
  | none => exact Or.inl ⟨rfl, rfl⟩
  | some ph =>
    have hv := h2 ph hc
    simp only
    rw [multiNull_congr fun i hi => aggCallbackV_eq hv ph sec hi]
    cases hm : ecmultMultiVarNull none (pubkeyAggCallback pks ph sec) pks.length with
    | none => exact absurd hm (multiNull_total (fun i => by simp [pubkeyAggCallback]) _)
    | some r =>
      refine Or.inr ⟨ph, r, rfl, hm, ?_⟩
      simp only
      cases hi : (geSetGej r).infinity with
      | true => rfl
      | false =>
        simp only [Bool.false_eq_true, if_false]
        rw [geEvenYV_eq rfl]

theorem pubkeyAggWithV_keys {Ps : List Pt} (hl : 33 * Ps.length < 2 ^ 60) (hP : ∀ P ∈ Ps, P ≠ 0) {sec : Ge Fp}
    (hs : GeRep 7 sec (secondKey Ps)) (agg cache : Option Bytes) :
    (aggPoint Ps = 0 → pubkeyAggWithV agg cache (Ps.map keyObject) sec = none) ∧
    (aggPoint Ps ≠ 0 → pubkeyAggWithV agg cache (Ps.map keyObject) sec =
      some (pubkeyAggWith agg cache (Ps.map keyObject) sec)) := by
  obtain ⟨r, e, hr⟩ := ecmultMultiVarNull_rep (callbackFor_keys hs Ps 0 hP (pks := Ps.map keyObject) rfl) none
  rw [aggPoint_sum, Option.getD_none, fn_zero_smul, add_zero] at hr
  have hg := geSetGej_rep hr
  rcases pubkeyAggWithV_spec (pks := Ps.map keyObject) (by rw [List.length_map]; exact hl) agg cache sec with
    h | ⟨h, r', h1, h2, h3⟩
  · rw [computePksHash_eq hP] at h; cases h.1
  · rw [computePksHash_eq hP] at h1
    obtain rfl := Option.some.inj h1
    rw [List.length_map] at h2 e
    rw [e] at h2
    obtain rfl := Option.some.inj h2
    rw [h3]
    exact ⟨fun h0 => if_pos (hg.inf_iff.2 h0), fun h0 => if_neg fun hi => h0 (hg.inf_iff.1 hi)⟩

theorem cacheEvenV_eq {c : KeyaggCache} (h : c.pk.infinity = false) (xonly : Bool) :
    cacheEvenV c xonly = some (cacheEven c xonly) := by
  unfold cacheEvenV cacheEven
  rw [geEvenYV_eq h]
  cases xonly
  · simp
  · by_cases h0 : (geEvenY c.pk).2 ≠ 0 <;> simp [h0]

theorem geSetGej_inf (a : Gej Fp) : (geSetGej a).infinity = a.infinity := by
  unfold geSetGej
  cases a.infinity <;> rfl

theorem tweakAdd_inf {a : Ge Fp} {t : Fn} (h : (eckeyPubkeyTweakAdd a t).2 = true) :
    (eckeyPubkeyTweakAdd a t).1.infinity = false := by
  unfold eckeyPubkeyTweakAdd at h ⊢
  dsimp only at h ⊢
  cases hi : (ecmult (gejSetGe a) 1 (some t)).infinity with
  | true => rw [hi] at h; cases h
  | false => simp only [Bool.false_eq_true, if_false]; rw [geSetGej_inf, hi]

theorem cacheLoad_inf {b : Bytes} {c : KeyaggCache} (h : keyaggCacheLoad b = some c) : c.pk.infinity = false := by
  unfold keyaggCacheLoad at h
  split_ifs at h
  rw [← Option.some.inj h]
  rfl

end Secp
