import Verif.Proof.VerifyApi
import Verif.Props.C33
import Verif.Props.C63

/-! # C83: the checks of a `VERIFY` build in the hash code, in recovery and in the modules

A build with `VERIFY` aborts when a `VERIFY_CHECK` fails.  The functions with the suffix `V` make these checks;
the value `none` is an abort.  The theorems say which calls do not abort (and then do what the build without
the checks does) and which do. -/

namespace Secp
open Model Spec

seal keyObject beBytes keysHash compressed

/-! ### Hashing -/

/-- A hash computed from any pieces of fewer than 2^61 bytes in total: no check fails, and the digest is
SHA-256 of the concatenation. -/
theorem C83_hash {h : Hash.Sha} (hb : h.buf.length = 64) {ds : List Bytes} (hl : ds.flatten.length < 2 ^ 61) :
    ∃ st, (Hash.writesV (Hash.init h) ds).bind Hash.finalizeV = some (sha256 ds.flatten, st) := by
  have h0 : (Hash.init h).bytes.toNat = 0 := rfl
  obtain ⟨e1, e2⟩ := Hash.writesV_eq ds (Hash.init h) (by rw [h0]; omega)
  rw [e1, Option.bind_some, Hash.finalizeV_eq (by rw [e2, h0]; omega)]
  have ha := Hash.writes_absorbed (Hash.init_absorbed h hb) ds
  rw [List.nil_append] at ha
  exact ⟨_, congrArg some (Prod.ext (Hash.finalize_spec ha).1 rfl)⟩

/-- With 2^61 bytes or more (that is, 2^64 bits, too long for SHA-256) the build with checks aborts. -/
theorem C83_hash_too_long (h : Hash.Sha) {ds : List Bytes} (hl : 2 ^ 61 ≤ ds.flatten.length)
    (hu : ds.flatten.length < 2 ^ 64) : (Hash.writesV (Hash.init h) ds).bind Hash.finalizeV = none := by
  have h0 : (Hash.init h).bytes.toNat = 0 := rfl
  obtain ⟨e1, e2⟩ := Hash.writesV_eq ds (Hash.init h) (by rw [h0]; omega)
  rw [e1, Option.bind_some, Hash.finalizeV_none (by rw [e2, h0]; omega)]

/-- Three pieces; the hypothesis of the second theorem is met by one long piece. -/
example : (∃ st, (Hash.writesV (Hash.init Hash.uninit) [[1], [], [2, 3]]).bind Hash.finalizeV =
      some (sha256 [1, 2, 3], st)) ∧
    2 ^ 61 ≤ [List.replicate (2 ^ 61) (0 : UInt8)].flatten.length :=
  ⟨C83_hash Hash.uninit_buf (by decide), by
    rw [List.flatten_singleton, List.length_replicate]⟩

/-! ### ElligatorSwift -/

/-- Decoding: all 64-byte strings, and all arguments. -/
theorem C83_ellswift_decode (pubkey ell64 : Option Bytes) :
    ellswiftDecodeV pubkey ell64 = some (ellswiftDecode pubkey ell64) := by
  cases pubkey with
  | none => rfl
  | some pk =>
    cases ell64 with
    | none => rfl
    | some ell =>
      simp only [ellswiftDecodeV, xswiftecFracVarV_eq]
      rfl

/-- The draw of the search with this counter is a multiple of `p`. -/
theorem draw_zero {hasher : Hash.Sha} {m : Bytes} (hm : Hash.Absorbed hasher m)
    (h : ∃ cnt, feSetB32Mod (ellswiftPrng hasher cnt) = 0) : ∃ k < 2 ^ 32, p ∣ beNat (ellRandom m k) := by
  obtain ⟨cnt, h⟩ := h
  refine ⟨cnt.toNat, cnt.toNat_lt, ?_⟩
  have e : ellswiftPrng hasher cnt = ellRandom m cnt.toNat := by
    rw [← prng_eq hm, UInt32.ofNat_toNat]
  have hl : (ellRandom m cnt.toNat).length = 32 := Hash.sha_length _
  rw [e] at h
  have : feSetB32Mod (ellRandom m cnt.toNat) = (beNat ((ellRandom m cnt.toNat).take 32) : Fp) := rfl
  rw [this, List.take_of_length_le hl.le] at h
  exact (ZMod.natCast_eq_zero_iff _ _).1 h

/-- Encoding a public key: when the build with checks does not abort it does what the other build does; it can
abort only if one of the 2^32 draws for this key and randomness is a multiple of `p` (nobody knows such a
case). -/
theorem C83_ellswift_encode {P : Pt} (hP : P ≠ 0) (fuel : ℕ) (ell : Bytes) {rnd : Bytes} (hr : rnd.length = 32) :
    (∀ o, ellswiftEncodeV fuel (some ell) (some (keyObject P)) (some rnd) = some o →
      o = ellswiftEncode fuel (some ell) (some (keyObject P)) (some rnd)) ∧
    (ellswiftEncodeV fuel (some ell) (some (keyObject P)) (some rnd) = none →
      ∃ k < 2 ^ 32, p ∣ beNat (ellRandom (ellEncodeSeed P rnd) k)) := by
  obtain ⟨h1, h2, -⟩ := pubkeyLoad_obj hP
  have hser := serialize_compressed h2 hP (pub := zeros 64) (by decide) 0
  have hd : (zeros 64).drop 33 = List.replicate 31 0 := rfl
  rw [hd] at hser
  have hcl : (compressed P ++ List.replicate 31 (0 : UInt8)).length = 64 := by
    rw [List.length_append, compressed_length]; rfl
  have hm := Hash.write_absorbed (Hash.write_absorbed
    (midstate_absorbed Hash.uninit Hash.uninit_buf encodeMid_ok) (compressed P ++ List.replicate 31 0)) rnd
  have hseed : ellEncodeSeed P rnd =
      sha256 ellEncodeTag ++ sha256 ellEncodeTag ++ (compressed P ++ List.replicate 31 0) ++ rnd := by
    rw [ellEncodeSeed, List.append_assoc _ (compressed P)]
  have hs0 : (shaMidstate Hash.uninit ellswiftEncodeMid).bytes = 64 := rfl
  have hw1 : (Hash.write (shaMidstate Hash.uninit ellswiftEncodeMid)
      (compressed P ++ List.replicate 31 0)).bytes = 128 := by
    rw [Hash.write_bytes, hcl, hs0]; rfl
  have hw2 : (Hash.write (Hash.write (shaMidstate Hash.uninit ellswiftEncodeMid)
      (compressed P ++ List.replicate 31 0)) rnd).bytes = 160 := by
    rw [Hash.write_bytes, hw1, hr]; rfl
  obtain ⟨v1, v2⟩ := elligatorswiftVarV_spec (onCurve_of_rep h2 hP) (Or.inr hw2) fuel
  simp only [ellswiftEncodeV, ellswiftEncode, h1, if_true, hser, List.take_of_length_le hcl.le,
    List.take_of_length_le hr.le, beq_self_eq_true, Bool.and_self]
  rw [Hash.writeV_eq (by rw [hs0, hcl]; decide)]
  simp only [Option.bind_eq_bind, Option.bind_some]
  rw [Hash.writeV_eq (by rw [hw1, hr]; decide)]
  simp only [Option.bind_some]
  cases h : elligatorswiftVarV fuel (pubkeyLoad (keyObject P)).1 (Hash.write (Hash.write
      (shaMidstate Hash.uninit ellswiftEncodeMid) (compressed P ++ List.replicate 31 0)) rnd) with
  | none =>
    refine ⟨fun o h' => (by cases h'), fun _ => ?_⟩
    rw [hseed]
    exact draw_zero hm (v2 h)
  | some o =>
    rw [← v1 o h]
    cases o with
    | none => exact ⟨fun o h => (Option.some.inj h).symm, fun h => by cases h⟩
    | some r => exact ⟨fun o h => (Option.some.inj h).symm, fun h => by cases h⟩

/-- The same for the encoding made from a secret key, valid or not. -/
theorem C83_ellswift_create {ctx : Ctx} (hctx : LiveCtx ctx) (fuel : ℕ) (ell : Bytes) {seckey : Bytes}
    (hs : seckey.length = 32) {aux : Option Bytes} (ha : ∀ a, aux = some a → a.length = 32) :
    (∀ o, ellswiftCreateV ctx fuel (some ell) (some seckey) aux = some o →
      o = ellswiftCreate ctx fuel (some ell) (some seckey) aux) ∧
    (ellswiftCreateV ctx fuel (some ell) (some seckey) aux = none →
      ∃ k < 2 ^ 32, p ∣ beNat (ellRandom (ellCreateSeed seckey aux) k)) := by
  obtain ⟨c1, c2, c3, c4⟩ := createHelper_rep hctx.ok seckey
  have hb : ecmultGenIsBuilt ctx.gen = true := hctx.ok.built
  have hs0 : (shaMidstate Hash.uninit ellswiftCreateMid).bytes = 64 := rfl
  have hz : (zeros 32).length = 32 := rfl
  have hw1 : (Hash.write (shaMidstate Hash.uninit ellswiftCreateMid) seckey).bytes = 96 := by
    rw [Hash.write_bytes, hs, hs0]; rfl
  have hw2 : (Hash.write (Hash.write (shaMidstate Hash.uninit ellswiftCreateMid) seckey) (zeros 32)).bytes = 128 := by
    rw [Hash.write_bytes, hw1, hz]; rfl
  have hm := Hash.write_absorbed (Hash.write_absorbed
    (midstate_absorbed Hash.uninit Hash.uninit_buf createMid_ok) seckey) (zeros 32)
  have hh : ellswiftCreateHasherV seckey aux = some (ellswiftCreateHasher seckey aux) ∧
      ((ellswiftCreateHasher seckey aux).bytes = 128 ∨ (ellswiftCreateHasher seckey aux).bytes = 160) ∧
      Hash.Absorbed (ellswiftCreateHasher seckey aux) (ellCreateSeed seckey aux) := by
    unfold ellswiftCreateHasherV ellswiftCreateHasher ellCreateSeed
    dsimp only
    rw [take32 hs, Hash.writeV_eq (by rw [hs0, hs]; decide)]
    simp only [Option.bind_eq_bind, Option.bind_some]
    rw [Hash.writeV_eq (by rw [hw1, hz]; decide)]
    simp only [Option.bind_some]
    cases aux with
    | none => exact ⟨rfl, Or.inl hw2, by rw [Option.getD_none, List.append_nil]; exact hm⟩
    | some a =>
      have hal := ha a rfl
      dsimp only
      rw [take32 hal, Hash.writeV_eq (by rw [hw2, hal]; decide), Option.getD_some]
      exact ⟨rfl, Or.inr (by rw [Hash.write_bytes, hw2, hal]; rfl), Hash.write_absorbed hm a⟩
  obtain ⟨g1, g2, g3⟩ := hh
  obtain ⟨v1, v2⟩ := elligatorswiftVarV_spec (onCurve_of_rep c1 (smul_G_ne c2)) g2 fuel
  have e : ({ (ecPubkeyCreateHelper ctx.gen seckey).2.1 with
      x := FeOps.normalize (ecPubkeyCreateHelper ctx.gen seckey).2.1.x,
      y := FeOps.normalize (ecPubkeyCreateHelper ctx.gen seckey).2.1.y } : Ge Fp) =
      (ecPubkeyCreateHelper ctx.gen seckey).2.1 := rfl
  simp only [ellswiftCreateV, ellswiftCreate, hb, Bool.not_true, Bool.false_eq_true, if_false, e, g1,
    Option.bind_eq_bind, Option.bind_some]
  generalize ecPubkeyCreateHelper ctx.gen seckey = hp at *
  cases h : elligatorswiftVarV fuel hp.2.1 (ellswiftCreateHasher seckey aux) with
  | none => exact ⟨fun o h' => (by cases h'), fun _ => draw_zero g3 (v2 h)⟩
  | some o =>
    rw [← v1 o h]
    cases o with
    | none => exact ⟨fun o h => (Option.some.inj h).symm, fun h => by cases h⟩
    | some r => exact ⟨fun o h => (Option.some.inj h).symm, fun h => by cases h⟩

/-- The generator with zero randomness; and the invalid secret key 0. -/
example := C83_ellswift_encode G_ne_zero 64 (zeros 64) (rnd := zeros 32) rfl

example {ctx : Ctx} (hctx : LiveCtx ctx) := C83_ellswift_create hctx 64 (zeros 64) (seckey := zeros 32) rfl
  (aux := none) (by simp)

/-! ### Recovery -/

/-- Recovering a key: for an object whose recovery id is below 4, as every object made by the library is, no
check fails, for all contents and arguments; with any other recovery id the build with checks aborts, once no
argument is NULL. -/
theorem C83_recover (pubkey msghash32 : Option Bytes) (sig : Bytes) :
    ((sig.getD 64 0).toNat < 4 →
      ecdsaRecoverV pubkey (some sig) msghash32 = some (ecdsaRecover pubkey (some sig) msghash32)) ∧
    (4 ≤ (sig.getD 64 0).toNat → ∀ pk m, pubkey = some pk → msghash32 = some m →
      ecdsaRecoverV pubkey (some sig) msghash32 = none) := by
  have hrec : (recoverableLoad sig).2.2 = (sig.getD 64 0).toNat := rfl
  constructor
  · intro h
    cases msghash32 with
    | none => rfl
    | some m =>
      cases pubkey with
      | none => rfl
      | some pk =>
        simp only [ecdsaRecoverV, ecdsaRecover]
        rw [if_neg (by rw [hrec]; omega), ecdsaSigRecoverV_eq]
        cases ecdsaSigRecover _ _ _ _ <;> rfl
  · rintro h pk m rfl rfl
    simp only [ecdsaRecoverV]
    rw [if_pos (by rw [hrec]; omega)]

/-- An object with recovery id 3, and one whose last byte is 4. -/
example : ecdsaRecoverV (some (zeros 64)) (some (recoverableSave 1 2 3)) (some (zeros 32)) =
      some (ecdsaRecover (some (zeros 64)) (some (recoverableSave 1 2 3)) (some (zeros 32))) ∧
    ecdsaRecoverV (some (zeros 64)) (some (zeros 64 ++ [4])) (some (zeros 32)) = none :=
  ⟨(C83_recover _ _ _).1 (by decide +kernel), (C83_recover _ _ _).2 (by decide +kernel) _ _ rfl rfl⟩

/-! ### Keys with an even Y coordinate -/

/-- The three functions of the extrakeys module that make the Y coordinate even: all arguments, including
objects that hold no key. -/
theorem C83_extrakeys (out : Option Bytes) (parity : Option Int) (obj tweak : Option Bytes) :
    xonlyPubkeyFromPubkeyV out parity obj = some (xonlyPubkeyFromPubkey out parity obj) ∧
    keypairXonlyPubV out parity obj = some (keypairXonlyPub out parity obj) ∧
    keypairXonlyTweakAddV obj tweak = some (keypairXonlyTweakAdd obj tweak) := by
  refine ⟨?_, ?_, ?_⟩
  · cases out with
    | none => rfl
    | some o =>
      cases obj with
      | none => rfl
      | some b =>
        simp only [xonlyPubkeyFromPubkeyV, xonlyPubkeyFromPubkey]
        rw [geEvenYV_eq (pubkeyLoad_inf b)]
        split_ifs <;> rfl
  · cases out with
    | none => rfl
    | some o =>
      cases obj with
      | none => rfl
      | some b =>
        have hi : (keypairLoadPub b).1.infinity = false := by
          unfold keypairLoadPub; dsimp only; split_ifs <;> rfl
        simp only [keypairXonlyPubV, keypairXonlyPub]
        rw [geEvenYV_eq hi]
        split_ifs <;> rfl
  · cases obj with
    | none => rfl
    | some b =>
      cases tweak with
      | none => rfl
      | some t =>
        have hi : (keypairLoad b).2.1.infinity = false := by
          unfold keypairLoad; dsimp only; split_ifs <;> rfl
        simp only [keypairXonlyTweakAddV, keypairXonlyTweakAdd]
        rw [geEvenYV_eq hi]

/-! ### MuSig -/

/-- Aggregating any objects (fewer than 2^50 of them): when the build with checks does not abort it does what
the other build does. -/
theorem C83_musig_pubkey_agg (agg cache : Option Bytes) (objs : Option (List Bytes))
    (hl : ∀ l, objs = some l → l.length < 2 ^ 50) {o : Out (Option Bytes × Option Bytes)}
    (h : musigPubkeyAggV agg cache objs = some o) : o = musigPubkeyAgg agg cache objs := by
  have key : ∀ (a c : Option Bytes) (pks : List Bytes) (sec : Ge Fp) (o : Out (Option Bytes × Option Bytes)),
      pks.length < 2 ^ 50 →
      pubkeyAggWithV a c pks sec = some o → o = pubkeyAggWith a c pks sec := by
    intro a c pks sec o hp h
    rcases pubkeyAggWithV_spec (pks := pks) (by omega) a c sec with ⟨-, e⟩ | ⟨_, r, -, -, e⟩
    · rw [e] at h; exact (Option.some.inj h).symm
    · rw [e] at h
      split_ifs at h
      exact (Option.some.inj h).symm
  cases objs with
  | none => exact (Option.some.inj h).symm
  | some l =>
    have hl := hl l rfl
    cases l with
    | nil => exact (Option.some.inj h).symm
    | cons pk0 rest =>
      simp only [musigPubkeyAggV, musigPubkeyAgg] at h ⊢
      cases hf : findSecond pk0 rest with
      | none => rw [hf] at h; exact key _ _ _ _ _ hl h
      | some pk =>
        rw [hf] at h
        simp only at h ⊢
        split_ifs at h ⊢
        · exact (Option.some.inj h).symm
        · exact key _ _ _ _ _ hl h

/-- For public keys, the build with checks aborts exactly if the aggregate is the point at infinity. -/
theorem C83_musig_pubkey_agg_abort {Ps : List Pt} (h0 : Ps ≠ []) (hl : Ps.length < 2 ^ 50)
    (hP : ∀ P ∈ Ps, P ≠ 0) (agg cache : Option Bytes) :
    musigPubkeyAggV agg cache (some (Ps.map keyObject)) = none ↔ aggPoint Ps = 0 := by
  have key : ∀ (a c : Option Bytes) (sec : Ge Fp), GeRep 7 sec (secondKey Ps) →
      (pubkeyAggWithV a c (Ps.map keyObject) sec = none ↔ aggPoint Ps = 0) := by
    intro a c sec hs
    obtain ⟨k1, k2⟩ := pubkeyAggWithV_keys (by omega) hP hs a c
    refine ⟨fun h => ?_, k1⟩
    by_contra hne
    rw [k2 hne] at h
    cases h
  cases Ps with
  | nil => exact absurd rfl h0
  | cons P Ps =>
    have hf := findSecond_eq P Ps
    have hsec := secondKey_cons P Ps
    unfold musigPubkeyAggV
    simp only [List.map_cons]
    rw [hf]
    cases hfind : Ps.find? fun Q => decide (Q ≠ P) with
    | none =>
      rw [hfind] at hsec
      exact key _ _ _ (by rw [hsec]; exact geInfinity_rep 7)
    | some Q =>
      rw [hfind] at hsec
      have hq : Q ≠ 0 := hP Q (List.mem_cons_of_mem _ (List.mem_of_find?_eq_some hfind))
      obtain ⟨h1, h2, -⟩ := pubkeyLoad_obj hq
      simp only [Option.map_some]
      rw [h1, if_neg (by decide)]
      exact key _ _ _ (by rw [hsec]; exact h2)

/-- The keys G, -G, G. -/
example (agg cache : Option Bytes) : musigPubkeyAggV agg cache (some ([G, -G, G].map keyObject)) ≠ none := by
  rw [Ne, C83_musig_pubkey_agg_abort (by simp) (by simp) (by simp [G_ne_zero])]
  exact aggPoint_example

/-- Tweaking an aggregate key: no check fails, whatever the contents of the cache and the other arguments. -/
theorem C83_musig_tweak_add (out cache tweak : Option Bytes) (xonly : Bool) :
    musigTweakAddInternalV out cache tweak xonly = some (musigTweakAddInternal out cache tweak xonly) := by
  cases cache with
  | none => rfl
  | some cache =>
    cases tweak with
    | none => rfl
    | some t =>
      simp only [musigTweakAddInternalV, musigTweakAddInternal]
      cases hc : keyaggCacheLoad cache with
      | none => rfl
      | some c =>
        simp only
        rw [cacheEvenV_eq (cacheLoad_inf hc)]
        simp only
        split_ifs with h1 h2 h3
        · rfl
        · rfl
        · have h2' : (eckeyPubkeyTweakAdd (cacheEven c xonly).pk (scSetB32 t).1).2 = true := by simpa using h2
          rw [tweakAdd_inf h2'] at h3
          cases h3
        · rfl

/-- Generating a nonce for a public key: the build with checks aborts exactly if one of the two nonces of
BIP-327 is zero, and otherwise does what the other build does. -/
theorem nonceGenInternalV {ctx : Ctx} (sec : Bytes) (old : Bytes) (hb : ecmultGenIsBuilt ctx.gen = true)
    {rand : Bytes}
    (hr : rand.length = 32) {sk : Option Bytes} (hs : ∀ s ∈ sk, s.length = 32) {P : Pt} (hP : P ≠ 0)
    {cache : Option (List Pt × KeyaggCtx)} (hc : ∀ c ∈ cache, KeyaggOk c.2) {msg ex : Option Bytes}
    (hm : ∀ x ∈ msg, x.length = 32) (he : ∀ x ∈ ex, x.length = 32) :
    musigNonceGenInternalV ctx sec (some old) rand sk (some (keyObject P)) msg (cacheArg cache) ex =
      if musigNonce rand sk P (cacheKey cache) msg ex 0 = 0 ∨ musigNonce rand sk P (cacheKey cache) msg ex 1 = 0
      then none
      else some (musigNonceGenInternal ctx sec (some old) rand sk (some (keyObject P)) msg (cacheArg cache) ex) := by
  have hagg : nonceGenAggPk (cacheArg cache) = some (cacheKey cache) := by
    cases cache with
    | none => rfl
    | some c =>
      obtain ⟨a, sec, e, ha, -⟩ := keyaggCacheLoad_obj (Ps := c.1) (hc c rfl)
      simp only [cacheArg, cacheKey, Option.map_some, nonceGenAggPk]
      rw [e, Option.map_some, feGetB32, geRep_x ha (hc c rfl).finite, xonly]
  obtain ⟨l1, l2, -⟩ := pubkeyLoad_obj hP
  have hser := serialize_compressed l2 hP (pub := zeros 33) (by decide) 33
  have hd : (zeros 33).drop 33 = [] := rfl
  rw [hd, List.append_nil] at hser
  have hk := nonceFunctionMusig_eq (P := P) hr hs (cacheKey_length cache) hm he
  simp only [musigNonceGenInternalV, musigNonceGenInternal, hb, hagg, l1, musigNonceGenCoreV, musigNonceGenCore,
    hser, hk, Bool.not_true, Bool.false_eq_true, if_false]
  generalize musigNonce rand sk P (cacheKey cache) msg ex 0 = k0
  generalize musigNonce rand sk P (cacheKey cache) msg ex 1 = k1
  by_cases h0 : k0 = 0
  · simp [scIsZero, h0]
  · by_cases h1 : k1 = 0
    · simp [scIsZero, h0, h1]
    · simp [scIsZero, h0, h1]

/-- `secp256k1_musig_nonce_gen` with nonzero randomness. -/
theorem C83_musig_nonce_gen {ctx : Ctx} (hctx : LiveCtx ctx) (old old' : Bytes) {rand : Bytes}
    (hr : rand.length = 32) (hz : ∃ x ∈ rand, x ≠ 0) {sk : Option Bytes} (hs : ∀ s ∈ sk, s.length = 32) {P : Pt}
    (hP : P ≠ 0) {cache : Option (List Pt × KeyaggCtx)} (hc : ∀ c ∈ cache, KeyaggOk c.2)
    {msg ex : Option Bytes} (hm : ∀ x ∈ msg, x.length = 32) (he : ∀ x ∈ ex, x.length = 32) :
    musigNonceGenV ctx (some old) (some old') (some rand) sk (some (keyObject P)) msg (cacheArg cache) ex =
      if musigNonce rand sk P (cacheKey cache) msg ex 0 = 0 ∨ musigNonce rand sk P (cacheKey cache) msg ex 1 = 0
      then none
      else some (musigNonceGen ctx (some old) (some old') (some rand) sk (some (keyObject P)) msg
        (cacheArg cache) ex) := by
  have hnz : isZeroArray (rand.take 32) = false := by
    obtain ⟨x, hx, hx0⟩ := hz
    rw [take32 hr, ← Bool.not_eq_true, isZeroArray_iff]
    exact fun h => hx0 (h x hx)
  simp only [musigNonceGenV, musigNonceGen, hnz, Bool.false_eq_true, if_false]
  rw [nonceGenInternalV (zeros 132) old' hctx.ok.built hr hs hP hc hm he]
  split_ifs <;> rfl

/-- `secp256k1_musig_nonce_gen_counter`. -/
theorem C83_musig_nonce_gen_counter {ctx : Ctx} (hctx : LiveCtx ctx) (old old' : Bytes) (cnt : UInt64) {d : Fn}
    (hd : d ≠ 0) {cache : Option (List Pt × KeyaggCtx)} (hc : ∀ c ∈ cache, KeyaggOk c.2)
    {msg ex : Option Bytes} (hm : ∀ x ∈ msg, x.length = 32) (he : ∀ x ∈ ex, x.length = 32) :
    musigNonceGenCounterV ctx (some old) (some old') cnt (some (keypairObject d)) msg (cacheArg cache) ex =
      if musigNonce (beBytes 8 cnt.toNat ++ List.replicate 24 0) (some (beBytes 32 d.val)) (d.val • G)
          (cacheKey cache) msg ex 0 = 0 ∨
        musigNonce (beBytes 8 cnt.toNat ++ List.replicate 24 0) (some (beBytes 32 d.val)) (d.val • G)
          (cacheKey cache) msg ex 1 = 0
      then none
      else some (musigNonceGenCounter ctx (some old) (some old') cnt (some (keypairObject d)) msg
        (cacheArg cache) ex) := by
  have hP : d.val • G ≠ 0 := by rw [val_smul]; exact smul_G_ne hd
  have hr : (beBytes 8 cnt.toNat ++ List.replicate 24 0 : Bytes).length = 32 := by
    rw [List.length_append, beBytes_len, List.length_replicate]
  unfold musigNonceGenCounterV musigNonceGenCounter
  simp only
  rw [keypairSec_obj d (by simp [zeros]), keypairPub_obj d]
  simp only
  rw [if_neg (by decide), if_neg (by decide), show zeros 24 = List.replicate 24 0 from rfl,
    nonceGenInternalV (zeros 132) old' hctx.ok.built hr (sk := some (beBytes 32 d.val))
      (by intro s hs; cases hs; exact beBytes_len _ _) hP hc hm he]
  generalize musigNonceGenInternal _ _ _ _ _ _ _ _ _ = o
  split_ifs with a b
  · rfl
  · simp only [b, if_true]
  · simp only [b, if_false]

/-- The keypair of the key 1, the counter 0, no cache, no message, no extra input. -/
example {ctx : Ctx} (hctx : LiveCtx ctx) :
    musigNonceGenCounterV ctx (some []) (some []) 0 (some (keypairObject 1)) none none none =
      some (musigNonceGenCounter ctx (some []) (some []) 0 (some (keypairObject 1)) none none none) := by
  have h := C83_musig_nonce_gen_counter hctx [] [] 0 one_ne_zero (d := 1) (cache := none) (msg := none)
    (ex := none) (by simp) (by simp) (by simp)
  exact h.trans (if_neg (not_or.2 ⟨nonce_example 0 (Or.inl rfl), nonce_example 1 (Or.inr rfl)⟩))

/-- The nonce of the key 1 with the number 1 as randomness: the hypotheses. -/
example {ctx : Ctx} (hctx : LiveCtx ctx) := C83_musig_nonce_gen hctx [] [] (rand := List.replicate 31 0 ++ [1])
  rfl ⟨1, by simp, by decide⟩ (sk := none) (by simp) (P := G) G_ne_zero (cache := none) (by simp) (msg := none)
  (ex := none) (by simp) (by simp)

/-! ### Calls that are refused -/

theorem nonceGenInternalV_refused {ctx : Ctx} {sn : Bytes} {pn : Option Bytes} {inp : Bytes}
    {sk pk msg cache ex : Option Bytes}
    (h : (musigNonceGenInternal ctx sn pn inp sk pk msg cache ex).illegal ≠ 0) :
    musigNonceGenInternalV ctx sn pn inp sk pk msg cache ex =
      some (musigNonceGenInternal ctx sn pn inp sk pk msg cache ex) := by
  unfold musigNonceGenInternal at h
  unfold musigNonceGenInternalV musigNonceGenInternal
  cases pn with
  | none => rfl
  | some pn =>
    cases pk with
    | none => rfl
    | some pk =>
      simp only at h ⊢
      by_cases h1 : (!ecmultGenIsBuilt ctx.gen) = true
      · rw [if_pos h1, if_pos h1]
      · rw [if_neg h1] at h
        rw [if_neg h1, if_neg h1]
        cases hg : nonceGenAggPk cache with
        | none => rfl
        | some a =>
          rw [hg] at h
          simp only at h ⊢
          by_cases h2 : (!(pubkeyLoad pk).2) = true
          · rw [if_pos h2, if_pos h2]
          · rw [if_neg h2] at h
            exact absurd rfl h

/-- A call to which the build without checks answers by the illegal callback (a missing argument, an object that is
not a key or a cache, a context that cannot multiply) is answered in the same way, byte for byte, by the build with
checks; it does not abort before or after. -/
theorem C83_refused (ctx : Ctx) (fuel : ℕ) (ell pk rnd sk aux : Option Bytes) (sn pn rand kp msg cache ex : Option Bytes)
    (cnt : UInt64) :
    (∀ o, ellswiftEncode fuel ell pk rnd = some o → o.illegal ≠ 0 →
      ellswiftEncodeV fuel ell pk rnd = some (some o)) ∧
    (∀ o, ellswiftCreate ctx fuel ell sk aux = some o → o.illegal ≠ 0 →
      ellswiftCreateV ctx fuel ell sk aux = some (some o)) ∧
    ((musigNonceGen ctx sn pn rand sk pk msg cache ex).illegal ≠ 0 →
      musigNonceGenV ctx sn pn rand sk pk msg cache ex = some (musigNonceGen ctx sn pn rand sk pk msg cache ex)) ∧
    ((musigNonceGenCounter ctx sn pn cnt kp msg cache ex).illegal ≠ 0 →
      musigNonceGenCounterV ctx sn pn cnt kp msg cache ex =
        some (musigNonceGenCounter ctx sn pn cnt kp msg cache ex)) := by
  refine ⟨?_, ?_, ?_, ?_⟩
  · intro o h hi
    unfold ellswiftEncode at h
    unfold ellswiftEncodeV
    cases ell with
    | none => exact congrArg some h
    | some ell =>
      cases pk with
      | none => exact congrArg some h
      | some pk =>
        cases rnd with
        | none => exact congrArg some h
        | some rnd =>
          simp only at h ⊢
          by_cases h1 : (pubkeyLoad pk).2 = true
          · rw [if_pos h1] at h
            split at h
            · cases h
            · cases h; exact absurd rfl hi
          · rw [if_neg h1] at h
            rw [if_neg h1]
            exact congrArg some h
  · intro o h hi
    unfold ellswiftCreate at h
    unfold ellswiftCreateV
    cases ell with
    | none => exact congrArg some h
    | some ell =>
      simp only at h ⊢
      by_cases h1 : (!ecmultGenIsBuilt ctx.gen) = true
      · rw [if_pos h1] at h
        rw [if_pos h1]
        exact congrArg some h
      · rw [if_neg h1] at h
        rw [if_neg h1]
        cases sk with
        | none => exact congrArg some h
        | some sk =>
          simp only at h
          split at h
          · cases h
          · cases h; exact absurd rfl hi
  · intro h
    unfold musigNonceGen at h
    unfold musigNonceGenV musigNonceGen
    cases sn with
    | none => rfl
    | some sn =>
      cases rand with
      | none => rfl
      | some rand =>
        simp only at h ⊢
        by_cases h1 : isZeroArray (rand.take 32) = true
        · rw [if_pos h1] at h
          exact absurd rfl h
        · rw [if_neg h1] at h
          rw [if_neg h1, if_neg h1, nonceGenInternalV_refused h]
  · intro h
    unfold musigNonceGenCounter at h
    unfold musigNonceGenCounterV musigNonceGenCounter
    cases sn with
    | none => rfl
    | some sn =>
      cases kp with
      | none => rfl
      | some kp =>
        simp only at h ⊢
        rw [if_neg (show ¬ (keypairSec (some (zeros 32)) (some kp)).ret = 0 by simp [keypairSec]),
          if_neg (show ¬ (keypairPub (some (zeros 64)) (some kp)).ret = 0 by simp [keypairPub]), nonceGenInternalV_refused h]

/-- Randomness of zeros only, which the build without checks refuses without the callback. -/
theorem C83_musig_zero_rand (ctx : Ctx) (sn : Bytes) (pn : Option Bytes) {rand : Bytes} (hr : rand.length = 32)
    (hz : ∀ x ∈ rand, x = 0) (sk pk msg cache ex : Option Bytes) :
    musigNonceGenV ctx (some sn) pn (some rand) sk pk msg cache ex =
      some (musigNonceGen ctx (some sn) pn (some rand) sk pk msg cache ex) := by
  have h1 : isZeroArray (rand.take 32) = true := by rw [take32 hr, isZeroArray_iff]; exact hz
  simp only [musigNonceGenV, musigNonceGen, h1, if_true]

/-- An object of zeros is not a key: the callback is called once and the output is zero. -/
example : ∃ o, ellswiftEncode 1 (some (List.replicate 64 7)) (some (List.replicate 64 0)) (some (List.replicate 32 1)) =
    some o ∧ o.illegal = 1 ∧ o.val = some (List.replicate 64 0) := by
  exact ⟨_, rfl, by decide +kernel, by decide +kernel⟩

/-- Without randomness the callback is called, in every context. -/
example (ctx : Ctx) : (musigNonceGen ctx (some (List.replicate 132 1)) none none none none none none none).illegal = 1 := rfl

end Secp
