import Verif.Props.C09

/-! # C10: ECDSA signatures produced verify

The nonce function is any function of the number of the call and of the arguments that the library
passes; it may fail, repeat itself or never return.  `fuel` bounds the number of attempts that are
followed; the theorem holds for every bound. -/

namespace Secp
open Model Spec

theorem sign_eq {ctx : Ctx} (hctx : LiveCtx ctx) (fuel : ℕ) (old msg seckey : Bytes)
    (nf : Option NonceFn) (data : Option Bytes) :
    ecdsaSign fuel ctx (some old) (some msg) (some seckey) nf data =
      (ecdsaSignInner fuel ctx msg seckey nf data).map
        (fun st => ⟨cInt st.ret, 0, some (sigObject st.r st.s)⟩) := by
  simp only [ecdsaSign, ecmultGenIsBuilt, hctx.ok.built]
  cases ecdsaSignInner fuel ctx msg seckey nf data <;> rfl

/-- If signing returns 1, the public key of the same secret key accepts the signature, and `s` is at
most `(n-1)/2`.  The contexts of signing and of key creation may differ and be randomized in any
way. -/
theorem C10_sign_verifies {ctx ctx' : Ctx} (hctx : LiveCtx ctx) (hctx' : LiveCtx ctx') {fuel : ℕ}
    {msg seckey : Bytes} (hm : msg.length = 32) (hk : seckey.length = 32) (nf : Option NonceFn)
    (data : Option Bytes) (old old' : Bytes) {sig : Bytes}
    (h : ecdsaSign fuel ctx (some old) (some msg) (some seckey) nf data = some ⟨1, 0, some sig⟩) :
    ∃ pk, ecPubkeyCreate ctx' (some old') (some seckey) = ⟨1, 0, some pk⟩ ∧
      ecdsaVerify (some sig) (some msg) (some pk) = ⟨1, 0, ()⟩ ∧
      ∃ r s : Fn, sig = sigObject r s ∧ s.val ≤ (n - 1) / 2 := by
  rw [sign_eq hctx] at h
  cases hi : ecdsaSignInner fuel ctx msg seckey nf data with
  | none => rw [hi] at h; cases h
  | some st =>
    rw [hi] at h
    have h := Option.some.inj h
    have hret : cInt st.ret = 1 := congrArg Out.ret h
    have hsig : sigObject st.r st.s = sig := Option.some.inj (congrArg Out.val h)
    obtain ⟨j, -, -, ⟨-, rfl⟩ | ⟨k, hu, hst⟩⟩ := signInner_finish hctx hi
    · simp [cInt] at hret
    · by_cases hv : (scSetB32Seckey seckey).2 = true
      · rw [if_pos hv] at hst
        have hv' := (scSetB32Seckey_iff seckey).1 hv
        have hkey : signKey seckey = ((beNat seckey : ℕ) : Fn) := by
          rw [signKey, if_pos hv', take32 hk]
        have hkv := hv'
        rw [take32 hk] at hkv
        rw [hkey] at hst hu
        obtain ⟨ret, b, -, -, -, k1, kn, hr, hs⟩ := hu
        rw [take32 hm] at hs hst
        have hne := smul_G_ne (cast_ne_zero hkv.1 hkv.2)
        refine ⟨_, pubkeyCreate_valid hctx' old' hv'.1 hv'.2, ?_, st.r, st.s, hsig.symm, ?_⟩
        · rw [← hsig, hst, take32 hk, C09_verify_accepts hne _ _ hm, ← low_iff, lowS_low]
          exact ⟨ecdsaValid_sign (cast_ne_zero k1 kn) hr hs, rfl⟩
        · rw [hst, ← low_iff, lowS_low]
          rfl
      · rw [if_neg hv] at hst
        rw [hst] at hret
        simp [cInt] at hret

theorem nonce_excl {d z : Fn} {c : NonceCall} {k : ℕ} (h : NonceUsable d z c k) :
    ¬ NonceFailed c ∧ ¬ NonceSkipped d z c := by
  refine ⟨?_, fun ⟨_, _, _, _, h'⟩ => h' ⟨k, h⟩⟩
  rintro ⟨b, hb⟩
  obtain ⟨ret, b', hc, hr, -⟩ := h
  rw [hb] at hc
  exact hr (congrArg Prod.fst (Option.some.inj hc)).symm

/-- Signing with a valid key does return 1 once the nonce function gives a usable nonce. -/
theorem C10_sign_succeeds {ctx : Ctx} (hctx : LiveCtx ctx) {fuel : ℕ} {msg seckey : Bytes}
    (hm : msg.length = 32) (hk : seckey.length = 32) (h1 : 1 ≤ beNat seckey) (hn : beNat seckey < n)
    (nf : NonceFn) (data : Option Bytes) (old : Bytes) {j : ℕ} (hj : j < fuel)
    (hskip : ∀ l < j, NonceSkipped ((beNat seckey : ℕ) : Fn) (msgScalar msg)
      (nonceCall nf msg seckey data l))
    (hend : ∃ k, NonceUsable ((beNat seckey : ℕ) : Fn) (msgScalar msg)
      (nonceCall nf msg seckey data j) k) :
    ∃ sig, ecdsaSign fuel ctx (some old) (some msg) (some seckey) (some nf) data =
      some ⟨1, 0, some sig⟩ := by
  have hv : (scSetB32Seckey seckey).2 = true := by
    rw [scSetB32Seckey_iff, take32 hk]; omega
  have hkey : signKey seckey = ((beNat seckey : ℕ) : Fn) := by
    rw [signKey, if_pos ((scSetB32Seckey_iff seckey).1 hv), take32 hk]
  obtain ⟨st, hst⟩ := signInner_total hctx (nf := some nf) hj (by rw [hkey, take32 hm]; exact hskip)
    (by rw [hkey, take32 hm]; exact Or.inr hend)
  refine ⟨sigObject st.r st.s, ?_⟩
  rw [sign_eq hctx, hst]
  obtain ⟨i, -, h2, h3⟩ := signInner_finish hctx hst
  rw [hkey, take32 hm] at h2 h3
  obtain ⟨k, hu⟩ := hend
  rcases h3 with ⟨h3, -⟩ | ⟨k', -, h3⟩
  · exfalso
    rcases lt_trichotomy i j with hlt | rfl | hlt
    · obtain ⟨ret, b, hc, hr, -⟩ := hskip i hlt
      obtain ⟨b', hb⟩ := h3
      have hc' : nonceCall nf msg seckey data i = some (0, b') := hb
      rw [hc] at hc'
      exact hr (congrArg Prod.fst (Option.some.inj hc'))
    · exact (nonce_excl hu).1 h3
    · exact (nonce_excl hu).2 (h2 j hlt)
  · rw [h3, if_pos hv]
    rfl

/-- A nonce function that writes the number of the call. -/
def countingNonce : NonceFn := fun i _ _ _ _ _ => some (1, beBytes 32 i)

theorem countingNonce_call (msg seckey : Bytes) (data : Option Bytes) (j : ℕ) :
    nonceCall countingNonce msg seckey data j = some (1, beBytes 32 j) := rfl

theorem countingNonce_zero (d z : Fn) : NonceSkipped d z (some (1, beBytes 32 0)) := by
  refine ⟨1, beBytes 32 0, rfl, by decide, ?_⟩
  have e : beNat ((beBytes 32 0).take 32) = 0 := by decide +kernel
  generalize beBytes 32 0 = x at e
  rintro ⟨k, ret, b, hc, -, hb, h1, -⟩
  have hb' : x = b := congrArg Prod.snd (Option.some.inj hc)
  rw [hb'] at e
  omega

theorem countingNonce_one {d z : Fn} (hs : ecdsaS d z 1 ≠ 0) :
    NonceUsable d z (some (1, beBytes 32 1)) 1 := by
  refine ⟨1, beBytes 32 1, rfl, by decide, by decide +kernel, by decide, by decide +kernel, ?_, ?_⟩
  · rw [Nat.cast_one]; exact ecdsaR_one_ne_zero
  · rw [Nat.cast_one]; exact hs

/-- Signing does return 1 in a concrete case: secret key 1, message 0, and a nonce function that
writes the nonce 0 at its first call and 1 at its second. -/
example : ∃ (ctx : Ctx) (sig : Bytes), LiveCtx ctx ∧
    ecdsaSign 2 ctx (some []) (some (List.replicate 32 0)) (some (beBytes 32 1))
      (some countingNonce) none = some ⟨1, 0, some sig⟩ := by
  have hctx := LiveCtx.create (junk := contextStatic comb22) (flags := 1) (Or.inr (Or.inl rfl)) rfl
  have hz : msgScalar (List.replicate 32 0) = 0 := by decide +kernel
  have hd : beNat (beBytes 32 1) = 1 := by decide +kernel
  obtain ⟨sig, h⟩ := C10_sign_succeeds hctx (fuel := 2) (msg := List.replicate 32 0)
    (seckey := beBytes 32 1) (by simp) (Hash.beBytes_length _ _) (by rw [hd])
    (by rw [hd]; decide +kernel) countingNonce none [] (j := 1) (by omega)
    (fun l hl => by
      obtain rfl : l = 0 := by omega
      exact countingNonce_zero _ _)
    ⟨1, by
      apply countingNonce_one
      rw [hd, hz, ecdsaS]
      simpa using ecdsaR_one_ne_zero⟩
  exact ⟨_, sig, hctx, h⟩

end Secp
