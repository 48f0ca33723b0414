import Verif.Proof.MusigNonce
import Verif.Props.C29
import Verif.Props.C30
import Verif.Props.C32

/-! # C33: MuSig nonce generation protects its randomness -/

namespace Secp
open Model Spec

seal keyObject beBytes keysHash compressed

/-- The serialized aggregate key for a key aggregation cache, if one is given. -/
def cacheKey (cache : Option (List Pt × KeyaggCtx)) : Option Bytes := cache.map fun c => xonly c.2.Q

/-- The cache object, if one is given. -/
def cacheArg (cache : Option (List Pt × KeyaggCtx)) : Option Bytes := cache.map fun c => cacheObject c.1 c.2

theorem cacheKey_length (cache : Option (List Pt × KeyaggCtx)) : ∀ x ∈ cacheKey cache, x.length = 32 := by
  intro x hx
  obtain ⟨c, -, rfl⟩ := Option.map_eq_some_iff.1 hx
  exact xonly_length _

theorem nonceGenInternal_eq {ctx : Ctx} (hctx : LiveCtx ctx) (k : ℕ) (old : Bytes) {rand : Bytes}
    (hr : rand.length = 32) {sk : Option Bytes} (hs : ∀ s ∈ sk, s.length = 32) {P : Pt} (hP : P ≠ 0)
    {cache : Option (List Pt × KeyaggCtx)} (hc : ∀ c ∈ cache, KeyaggOk c.2) {msg ex : Option Bytes}
    (hm : ∀ x ∈ msg, x.length = 32) (he : ∀ x ∈ ex, x.length = 32)
    (h0 : musigNonce rand sk P (cacheKey cache) msg ex 0 ≠ 0)
    (h1 : musigNonce rand sk P (cacheKey cache) msg ex 1 ≠ 0) {v : Bool}
    (hv : nonceGenSeckeyOk sk = v) :
    musigNonceGenInternal ctx (zeros k) (some old) rand sk (some (keyObject P)) msg (cacheArg cache) ex =
      ⟨cInt v, 0, (if v then secnonceObject (musigNonce rand sk P (cacheKey cache) msg ex 0)
          (musigNonce rand sk P (cacheKey cache) msg ex 1) P else List.replicate 132 0,
        some (pubnonceObject ((musigNonce rand sk P (cacheKey cache) msg ex 0).val • G)
          ((musigNonce rand sk P (cacheKey cache) msg ex 1).val • G)))⟩ := by
  have hagg : nonceGenAggPk (cacheArg cache) = some (cacheKey cache) := by
    cases cache with
    | none => rfl
    | some c =>
      obtain ⟨a, sec, e, ha, -⟩ := keyaggCacheLoad_obj (Ps := c.1) (hc c rfl)
      simp only [cacheArg, cacheKey, Option.map_some, nonceGenAggPk]
      rw [e, Option.map_some, feGetB32_rep ha (hc c rfl).finite]
  obtain ⟨l1, l2, -⟩ := pubkeyLoad_obj hP
  unfold musigNonceGenInternal
  simp only
  rw [if_neg (by rw [ecmultGenIsBuilt, hctx.ok.built]; decide), hagg]
  simp only
  rw [if_neg (by rw [l1]; decide), hv,
    nonceGenCore_eq hctx.ok hr hs hP l2 (cacheKey_length cache) hm he h0 h1]

/-- The result of `secp256k1_musig_nonce_gen` with nonzero session randomness, a valid secret key or none,
a public key, and any of the optional message, cache and extra input: the two nonces of BIP-327, the
secret nonce object bound to the public key, and the session randomness zeroed.  (The exception is a hash
value that is zero modulo the order.) -/
theorem C33_nonce_gen {ctx : Ctx} (hctx : LiveCtx ctx) (old old' : Bytes) {rand : Bytes}
    (hr : rand.length = 32) (hz : ∃ x ∈ rand, x ≠ 0) {sk : Option Bytes}
    (hs : ∀ s ∈ sk, s.length = 32 ∧ 0 < beNat s ∧ beNat s < n) {P : Pt} (hP : P ≠ 0)
    {cache : Option (List Pt × KeyaggCtx)} (hc : ∀ c ∈ cache, KeyaggOk c.2) {msg ex : Option Bytes}
    (hm : ∀ x ∈ msg, x.length = 32) (he : ∀ x ∈ ex, x.length = 32)
    (h0 : musigNonce rand sk P (cacheKey cache) msg ex 0 ≠ 0)
    (h1 : musigNonce rand sk P (cacheKey cache) msg ex 1 ≠ 0) :
    musigNonceGen ctx (some old) (some old') (some rand) sk (some (keyObject P)) msg (cacheArg cache) ex =
      ⟨1, 0, (some (secnonceObject (musigNonce rand sk P (cacheKey cache) msg ex 0)
          (musigNonce rand sk P (cacheKey cache) msg ex 1) P),
        some (pubnonceObject ((musigNonce rand sk P (cacheKey cache) msg ex 0).val • G)
          ((musigNonce rand sk P (cacheKey cache) msg ex 1).val • G)),
        some (List.replicate 32 0))⟩ := by
  have hv : nonceGenSeckeyOk sk = true := by
    cases sk with
    | none => rfl
    | some s =>
      obtain ⟨a, b⟩ := hs s rfl
      exact (scSetB32Seckey_iff s).2 (by rw [take32 a]; exact b)
  have hz' : ¬ isZeroArray (rand.take 32) = true := by
    rw [isZeroArray_iff, take32 hr]
    obtain ⟨x, hx, hx0⟩ := hz
    exact fun h => hx0 (h x hx)
  unfold musigNonceGen
  simp only
  rw [if_neg hz', nonceGenInternal_eq hctx 132 old' hr (fun s h => (hs s h).1) hP hc hm he h0 h1 hv]
  simp only [if_true]
  rw [take32 hr, memczero, if_pos (by simp [cInt]), hr, put_zero_full (by rw [hr]; simp [zeros])]
  rfl

/-- Session randomness that is all zero: return value 0, the secret nonce object is zeroed and nothing else
is touched, whatever the other arguments are. -/
theorem C33_zero_randomness (ctx : Ctx) (old : Bytes) (pubnonce : Option Bytes) {rand : Bytes}
    (hz : ∀ x ∈ rand, x = 0) (seckey pubkey msg cache extra : Option Bytes) :
    musigNonceGen ctx (some old) pubnonce (some rand) seckey pubkey msg cache extra =
      ⟨0, 0, (some (List.replicate 132 0), pubnonce, some rand)⟩ := by
  unfold musigNonceGen
  simp only
  rw [if_pos ((isZeroArray_iff _).2 fun x hx => hz x (List.mem_of_mem_take hx)), secnonceInvalidate, memczero,
    if_pos rfl, show (zeros 132).length = 132 by simp [zeros]]
  rfl

example (ctx : Ctx) := C33_zero_randomness ctx [1] (some [2]) (rand := List.replicate 32 0)
  (fun _ h => List.eq_of_mem_replicate h) none (some (keyObject G)) none none none

/-- An invalid secret key: return value 0, whatever the other arguments are. -/
theorem C33_invalid_seckey (ctx : Ctx) (secnonce pubnonce rand : Option Bytes) {seckey : Bytes}
    (hl : seckey.length = 32) (hs : beNat seckey = 0 ∨ n ≤ beNat seckey)
    (pubkey msg cache extra : Option Bytes) :
    (musigNonceGen ctx secnonce pubnonce rand (some seckey) pubkey msg cache extra).ret = 0 := by
  have hk : (scSetB32Seckey seckey).2 = false := by
    rw [Bool.eq_false_iff, Ne, scSetB32Seckey_iff, take32 hl]
    omega
  have hi : ∀ (sn : Bytes) (r : Bytes),
      (musigNonceGenInternal ctx sn pubnonce r (some seckey) pubkey msg cache extra).ret = 0 := by
    intro sn r
    unfold musigNonceGenInternal
    cases pubnonce with
    | none => rfl
    | some pn =>
      cases pubkey with
      | none => rfl
      | some pk =>
        simp only
        rw [nonceGenSeckeyOk, hk]
        split
        · rfl
        · split
          · rfl
          · split <;> rfl
  unfold musigNonceGen
  cases secnonce with
  | none => rfl
  | some sn =>
    cases rand with
    | none => rfl
    | some r =>
      simp only
      split
      · rfl
      · exact hi _ _

example (ctx : Ctx) := C33_invalid_seckey ctx (some []) (some []) (some (List.replicate 32 1))
  (seckey := beBytes 32 n) (Hash.beBytes_length _ _) (Or.inr (by decide +kernel)) (some (keyObject G)) none none none

/-- Whenever a generation call fails, for whatever reason, the secret nonce object cannot be used: a
following `secp256k1_musig_partial_sign` rejects it; and the session randomness is not consumed. -/
theorem C33_failure (ctx : Ctx) (old : Bytes) (pubnonce rand seckey pubkey msg cache extra : Option Bytes)
    (hf : (musigNonceGen ctx (some old) pubnonce rand seckey pubkey msg cache extra).ret = 0) :
    (∀ r ∈ rand, r.length = 32) →
    (musigNonceGen ctx (some old) pubnonce rand seckey pubkey msg cache extra).val.2.2 = rand ∧
    ∃ secnonce, (musigNonceGen ctx (some old) pubnonce rand seckey pubkey msg cache extra).val.1 =
        some secnonce ∧
      ∀ partialSig keypair cache' session,
        (musigPartialSign partialSig (some secnonce) keypair cache' session).ret = 0 := by
  intro hr
  have hrand : (musigNonceGen ctx (some old) pubnonce rand seckey pubkey msg cache extra).val.2.2 = rand := by
    revert hf
    unfold musigNonceGen
    cases rand with
    | none => exact fun _ => rfl
    | some r =>
      simp only
      split
      · exact fun _ => rfl
      · intro h
        simp only at h ⊢
        rw [take32 (hr r rfl), memczero, if_neg (by simpa using h), put_zero_full rfl]
  have hsome : ∃ sn, (musigNonceGen ctx (some old) pubnonce rand seckey pubkey msg cache extra).val.1 =
      some sn := by
    unfold musigNonceGen
    cases rand with
    | none => exact ⟨_, rfl⟩
    | some r =>
      simp only
      split <;> exact ⟨_, rfl⟩
  obtain ⟨sn, hsn⟩ := hsome
  refine ⟨hrand, sn, hsn, fun ps kp ca se => ?_⟩
  have := exec_fails_dead (fun _ => old) 0 (.gen 0 ctx pubnonce rand seckey pubkey msg cache extra) rfl hf
  unfold Dead NonceCall.exec at this
  simp only at this
  rw [Function.update_self, hsn, Option.getD_some] at this
  unfold musigPartialSign
  simp only
  rw [this]

/-- Zero randomness. -/
example (ctx : Ctx) := C33_failure ctx [1] (some [2]) (some (List.replicate 32 0)) none (some (keyObject G)) none
  none none (by rw [C33_zero_randomness ctx [1] (some [2]) (fun _ h => List.eq_of_mem_replicate h)])

/-- The result of `secp256k1_musig_nonce_gen_counter`: as `secp256k1_musig_nonce_gen` with the keys of the
keypair, and the counter (big endian, padded with zeros) as session randomness. -/
theorem C33_nonce_gen_counter {ctx : Ctx} (hctx : LiveCtx ctx) (old old' : Bytes) (cnt : UInt64) {d : Fn}
    (hd : d ≠ 0) {cache : Option (List Pt × KeyaggCtx)} (hc : ∀ c ∈ cache, KeyaggOk c.2)
    {msg ex : Option Bytes} (hm : ∀ x ∈ msg, x.length = 32) (he : ∀ x ∈ ex, x.length = 32) {k₁ k₂ : Fn}
    (e₁ : musigNonce (beBytes 8 cnt.toNat ++ List.replicate 24 0) (some (beBytes 32 d.val)) (d.val • G)
      (cacheKey cache) msg ex 0 = k₁)
    (e₂ : musigNonce (beBytes 8 cnt.toNat ++ List.replicate 24 0) (some (beBytes 32 d.val)) (d.val • G)
      (cacheKey cache) msg ex 1 = k₂) (h0 : k₁ ≠ 0) (h1 : k₂ ≠ 0) :
    musigNonceGenCounter ctx (some old) (some old') cnt (some (keypairObject d)) msg (cacheArg cache) ex =
      ⟨1, 0, (some (secnonceObject k₁ k₂ (d.val • G)),
        some (pubnonceObject (k₁.val • G) (k₂.val • G)))⟩ := by
  subst e₁ e₂
  have hP : d.val • G ≠ 0 := by rw [val_smul]; exact smul_G_ne hd
  have hb : beNat (beBytes 32 d.val) = d.val := by rw [beNat_beBytes, Nat.mod_eq_of_lt (fn_lt d)]
  have hv : nonceGenSeckeyOk (some (beBytes 32 d.val)) = true := by
    refine (scSetB32Seckey_iff _).2 ?_
    rw [take32 (beBytes_len _ _), hb]
    exact ⟨Nat.pos_of_ne_zero fun h => hd ((ZMod.val_eq_zero d).1 h), ZMod.val_lt d⟩
  have hr : (beBytes 8 cnt.toNat ++ List.replicate 24 0 : Bytes).length = 32 := by
    rw [List.length_append, beBytes_len, List.length_replicate]
  unfold musigNonceGenCounter
  simp only
  rw [keypairSec_obj d (by simp [zeros]), keypairPub_obj d]
  simp only
  have this := nonceGenInternal_eq hctx 132 old' hr (sk := some (beBytes 32 d.val))
    (by intro s hs; cases hs; exact beBytes_len _ _) hP hc hm he h0 h1 hv
  rw [show zeros 24 = List.replicate 24 0 from rfl, this]
  rfl

theorem xor_right_cancel : ∀ {a b c : Bytes}, a.length = b.length → a.length = c.length →
    List.zipWith (· ^^^ ·) a b = List.zipWith (· ^^^ ·) a c → b = c
  | [], [], [], _, _, _ => rfl
  | x :: a, y :: b, z :: c, hb, hc, h => by
    simp only [List.zipWith_cons_cons, List.cons.injEq] at h
    have hx : y = z := by
      have := congrArg (x ^^^ ·) h.1
      simpa [← UInt8.xor_assoc] using this
    rw [hx, xor_right_cancel (by simpa using hb) (by simpa using hc) h.2]

/-- The input of the nonce hash determines the masked randomness, the public key, the aggregate key, the
message, the extra input and the index: no two different sets of inputs are hashed alike. -/
theorem C33_input_injective {r r' : Bytes} (hr : r.length = 32) (hr' : r'.length = 32) {P P' : Pt}
    {agg agg' msg msg' ex ex' : Option Bytes} (ha : ∀ x ∈ agg, x.length = 32) (ha' : ∀ x ∈ agg', x.length = 32)
    (hm : ∀ x ∈ msg, x.length = 32) (hm' : ∀ x ∈ msg', x.length = 32)
    (he : ∀ x ∈ ex, x.length = 32) (he' : ∀ x ∈ ex', x.length = 32) {i i' : UInt8}
    (h : musigNonceInput r P agg msg ex i = musigNonceInput r' P' agg' msg' ex' i') :
    r = r' ∧ P = P' ∧ agg = agg' ∧ msg = msg' ∧ ex = ex' ∧ i = i' := by
  unfold musigNonceInput at h
  simp only [List.append_assoc] at h
  obtain ⟨h1, h⟩ := List.append_inj h (by rw [hr, hr'])
  obtain ⟨h2, h⟩ := List.append_inj h (by simp [compressed_length])
  have hP := compressed_injective (List.cons.inj h2).2
  have hagg : agg = agg' := by
    cases agg with
    | none =>
      cases agg' with
      | none => rfl
      | some a' => exact absurd (List.cons.inj h).1 (by decide)
    | some a =>
      cases agg' with
      | none => exact absurd (List.cons.inj h).1 (by decide)
      | some a' =>
        have := (List.append_inj h (by simp [ha a rfl, ha' a' rfl])).1
        rw [(List.cons.inj this).2]
  subst hagg
  replace h := List.append_cancel_left h
  have hmsg : msg = msg' := by
    cases msg with
    | none =>
      cases msg' with
      | none => rfl
      | some a' => exact absurd (List.cons.inj h).1 (by decide)
    | some a =>
      cases msg' with
      | none => exact absurd (List.cons.inj h).1 (by decide)
      | some a' =>
        have := (List.append_inj h (by simp [hm a rfl, hm' a' rfl, beBytes_len])).1
        rw [List.append_cancel_left (List.cons.inj this).2]
  subst hmsg
  replace h := List.append_cancel_left h
  have h40 : beBytes 4 0 ≠ beBytes 4 32 := by decide +kernel
  cases ex with
  | none =>
    cases ex' with
    | none => exact ⟨h1, hP, rfl, rfl, rfl, (List.cons.inj (List.append_cancel_left h)).1⟩
    | some a' =>
      have := congrArg List.length h
      simp [beBytes_len, he' a' rfl] at this
  | some a =>
    cases ex' with
    | none =>
      have := congrArg List.length h
      simp [beBytes_len, he a rfl] at this
    | some a' =>
      obtain ⟨e1, e2⟩ := List.append_inj h (by simp [he a rfl, he' a' rfl, beBytes_len])
      exact ⟨h1, hP, rfl, rfl, by rw [List.append_cancel_left e1], (List.cons.inj e2).1⟩

/-- Different counters with the same key are hashed to nonces from different inputs, or else they are a
collision of the tagged hash that masks the key. -/
theorem C33_counter_distinct {cnt cnt' : UInt64} (hne : cnt ≠ cnt') {sk : Bytes} (hs : sk.length = 32)
    {P P' : Pt} {agg agg' msg msg' ex ex' : Option Bytes} (ha : ∀ x ∈ agg, x.length = 32)
    (ha' : ∀ x ∈ agg', x.length = 32) (hm : ∀ x ∈ msg, x.length = 32) (hm' : ∀ x ∈ msg', x.length = 32)
    (he : ∀ x ∈ ex, x.length = 32) (he' : ∀ x ∈ ex', x.length = 32) (i i' : UInt8) :
    let c := beBytes 8 cnt.toNat ++ List.replicate 24 0
    let c' := beBytes 8 cnt'.toNat ++ List.replicate 24 0
    c ≠ c' ∧
    (musigNonceInput (musigMask c (some sk)) P agg msg ex i ≠
        musigNonceInput (musigMask c' (some sk)) P' agg' msg' ex' i' ∨
      taggedHash musigAuxTag c = taggedHash musigAuxTag c') := by
  refine ⟨fun h => ?_, ?_⟩
  · have h8 := (List.append_inj h (by rw [beBytes_len, beBytes_len])).1
    have := congrArg beNat h8
    rw [beNat_beBytes, beNat_beBytes] at this
    apply hne
    apply UInt64.toNat_inj.1
    have l1 := cnt.toNat_lt
    have l2 := cnt'.toNat_lt
    rw [show (256 : ℕ) ^ 8 = 2 ^ 64 by decide, Nat.mod_eq_of_lt l1, Nat.mod_eq_of_lt l2] at this
    exact this
  · by_cases h : musigNonceInput (musigMask (beBytes 8 cnt.toNat ++ List.replicate 24 0) (some sk)) P agg msg ex i =
        musigNonceInput (musigMask (beBytes 8 cnt'.toNat ++ List.replicate 24 0) (some sk)) P' agg' msg' ex' i'
    · right
      have hl : ∀ c, (musigMask c (some sk)).length = 32 := by
        intro c
        rw [musigMask, List.length_zipWith, hs, taggedHash_length]
        rfl
      have := (C33_input_injective (hl _) (hl _) ha ha' hm hm' he he' h).1
      exact xor_right_cancel (by rw [hs, taggedHash_length]) (by rw [hs, taggedHash_length]) this
    · exact Or.inl h

example := C33_counter_distinct (cnt := 1) (cnt' := 2) (by decide) (sk := List.replicate 32 1) (by simp)
  (P := G) (P' := G) (agg := none) (agg' := none) (msg := none) (msg' := none) (ex := none) (ex' := none)
  (by simp) (by simp) (by simp) (by simp) (by simp) (by simp) 0 1

/-- The nonces for the key 1, the counter 0, no cache, no message and no extra input. -/
theorem nonce_example (i : UInt8) (hi : i = 0 ∨ i = 1) :
    musigNonce (beBytes 8 (0 : UInt64).toNat ++ List.replicate 24 0) (some (beBytes 32 (1 : Fn).val))
      ((1 : Fn).val • G) none none none i ≠ 0 := by
  have h1 : (1 : Fn).val • G = G := by rw [val_smul, one_smul]
  rw [h1, musigNonce, musigNonceInput, musigMask, compressed_G, taggedHash, taggedHash, Hash.fastSha_eq,
    Hash.fastSha_eq, Hash.fastSha_eq, Hash.fastSha_eq]
  rw [Ne, ZMod.natCast_eq_zero_iff, Nat.dvd_iff_mod_eq_zero]
  rcases hi with rfl | rfl <;> decide +kernel

theorem history_example {ctx : Ctx} (hc : LiveCtx ctx) {k₁ k₂ : Fn}
    (e₁ : musigNonce (beBytes 8 (0 : UInt64).toNat ++ List.replicate 24 0) (some (beBytes 32 (1 : Fn).val))
      ((1 : Fn).val • G) none none none 0 = k₁)
    (e₂ : musigNonce (beBytes 8 (0 : UInt64).toNat ++ List.replicate 24 0) (some (beBytes 32 (1 : Fn).val))
      ((1 : Fn).val • G) none none none 1 = k₂) (h0 : k₁ ≠ 0) (h1 : k₂ ≠ 0) (st : ℕ → Bytes) :
    (NonceCall.genCounter 0 ctx (some []) 0 (some (keypairObject 1)) none none none).exec st =
      (1, Function.update st 0 (secnonceObject k₁ k₂ ((1 : Fn).val • G))) ∧
    ((NonceCall.sign 0 (some []) (some (keypairObject 1))
      (some (cacheObject [G, -G, G] (keyaggInit [G, -G, G])))
      (some (sessionObject 0 (xonly G) 1 1 1))).exec (Function.update st 0 (secnonceObject k₁ k₂
        ((1 : Fn).val • G)))).1 = 1 := by
  have hone : (1 : Fn) ≠ 0 := by decide +kernel
  constructor
  · have := C33_nonce_gen_counter hc (st 0) [] 0 hone (cache := none) (by simp) (msg := none) (ex := none)
      (by simp) (by simp) e₁ e₂ h0 h1
    unfold NonceCall.exec
    simp only
    rw [show cacheArg none = none from rfl] at this
    rw [this]
    simp only [Option.getD_some]
  · have := C30_sign (Ps := [G, -G, G]) (c := keyaggInit [G, -G, G]) ⟨aggPoint_example, Or.inl rfl⟩ hone
      (fun h => h0 h.1) 0 (xonly_length G) 1 1 1 [] (k1 := k₁) (k2 := k₂)
    unfold NonceCall.exec
    simp only
    rw [Function.update_self, this]

/-- A whole history: generate, sign, generate again, sign again; every call returns 1. -/
example : ∃ (ctx : Ctx) (gen sign : NonceCall), LiveCtx ctx ∧ gen.Fills 0 ∧ sign.Signs 0 ∧
    (gen.exec fun _ => []).1 = 1 ∧
    (sign.exec (nonceRun (fun _ => []) [gen])).1 = 1 ∧
    (gen.exec (nonceRun (fun _ => []) [gen, sign])).1 = 1 ∧
    (sign.exec (nonceRun (fun _ => []) ([gen] ++ sign :: [gen]))).1 = 1 := by
  obtain ⟨ctx, hc⟩ : ∃ ctx, LiveCtx ctx :=
    ⟨_, LiveCtx.create (junk := contextStatic comb22) (flags := 1) (Or.inr (Or.inl rfl)) rfl⟩
  have h0 := nonce_example 0 (Or.inl rfl)
  have h1 := nonce_example 1 (Or.inr rfl)
  have H := fun k₁ k₂ e₁ e₂ => history_example hc (k₁ := k₁) (k₂ := k₂) e₁ e₂
  generalize musigNonce (beBytes 8 (0 : UInt64).toNat ++ List.replicate 24 0) (some (beBytes 32 (1 : Fn).val))
      ((1 : Fn).val • G) none none none 0 = k₁ at h0 H
  generalize musigNonce (beBytes 8 (0 : UInt64).toNat ++ List.replicate 24 0) (some (beBytes 32 (1 : Fn).val))
      ((1 : Fn).val • G) none none none 1 = k₂ at h1 H
  replace H := H k₁ k₂ rfl rfl h0 h1
  refine ⟨ctx, .genCounter 0 ctx (some []) 0 (some (keypairObject 1)) none none none,
    .sign 0 (some []) (some (keypairObject 1)) (some (cacheObject [G, -G, G] (keyaggInit [G, -G, G])))
      (some (sessionObject 0 (xonly G) 1 1 1)), hc, rfl, rfl, ?_, ?_, ?_, ?_⟩
  · rw [(H _).1]
  · unfold nonceRun
    rw [List.foldl_cons, List.foldl_nil, (H _).1]
    exact (H _).2
  · rw [(H _).1]
  · unfold nonceRun
    rw [List.foldl_append, List.foldl_cons, List.foldl_cons, List.foldl_nil, (H _).1]
    exact (H _).2

end Secp
