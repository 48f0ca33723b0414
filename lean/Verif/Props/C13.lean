import Verif.Props.C10
import Verif.Proof.Recover

/-! # C13: recovery from a recoverable signature returns the signer's key -/

namespace Secp
open Model Spec

theorem signRecoverable_eq {ctx : Ctx} (hctx : LiveCtx ctx) (fuel : ℕ) (old msg seckey : Bytes)
    (nf : Option NonceFn) (data : Option Bytes) :
    ecdsaSignRecoverable fuel ctx (some old) (some msg) (some seckey) nf data =
      (ecdsaSignInner fuel ctx msg seckey nf data).map
        (fun st => ⟨cInt st.ret, 0, some (recObject st.r st.s st.recid)⟩) := by
  simp only [ecdsaSignRecoverable, ecmultGenIsBuilt, hctx.ok.built]
  cases ecdsaSignInner fuel ctx msg seckey nf data <;> rfl

theorem recover_obj (old : Bytes) (r s : Fn) {v : ℕ} (hv : v < 4) {msg : Bytes}
    (hm : msg.length = 32) :
    ecdsaRecover (some old) (some (recObject r s v)) (some msg) =
      match ecdsaSigRecover r s (msgScalar msg) v with
      | some q => ⟨1, 0, some (pubkeySave q)⟩
      | none => ⟨0, 0, some (List.replicate 64 0)⟩ := by
  simp only [ecdsaRecover, recoverableLoad_obj r s hv, scSetB32_msg, take32 hm]
  rfl

theorem recover_some (old : Bytes) {r s : Fn} {v : ℕ} (hv : v < 4) {msg : Bytes}
    (hm : msg.length = 32) (hr : r ≠ 0) (hs : s ≠ 0) {R : Pt} (hR : RecoveryPoint r v R)
    (hK : recoveredKey R (msgScalar msg) r s ≠ 0) :
    ecdsaRecover (some old) (some (recObject r s v)) (some msg) =
      ⟨1, 0, some (keyObject (recoveredKey R (msgScalar msg) r s))⟩ := by
  obtain ⟨q, h1, h2⟩ := sigRecover_some hv hr hs hR hK
  rw [recover_obj old r s hv hm, h1]
  simp only
  rw [pubkeySave_rep h2 hK]

/-- If signing returns 1, recovery from the signature and the same message returns 1 and the public
key of the secret key. -/
theorem C13_recover_signed {ctx ctx' : Ctx} (hctx : LiveCtx ctx) (hctx' : LiveCtx ctx') {fuel : ℕ}
    {msg seckey : Bytes} (hm : msg.length = 32) (hk : seckey.length = 32) (nf : Option NonceFn)
    (data : Option Bytes) (old old' old'' : Bytes) {sig : Bytes}
    (h : ecdsaSignRecoverable fuel ctx (some old) (some msg) (some seckey) nf data =
      some ⟨1, 0, some sig⟩) :
    ∃ pk, ecPubkeyCreate ctx' (some old') (some seckey) = ⟨1, 0, some pk⟩ ∧
      ecdsaRecover (some old'') (some sig) (some msg) = ⟨1, 0, some pk⟩ := by
  rw [signRecoverable_eq hctx] at h
  cases hi : ecdsaSignInner fuel ctx msg seckey nf data with
  | none => rw [hi] at h; cases h
  | some st =>
    rw [hi] at h
    have h := Option.some.inj h
    have hret : cInt st.ret = 1 := congrArg Out.ret h
    have hsig : recObject st.r st.s st.recid = sig := Option.some.inj (congrArg Out.val h)
    obtain ⟨j, -, -, ⟨-, rfl⟩ | ⟨k, hu, hst⟩⟩ := signInner_finish hctx hi
    · simp [cInt] at hret
    · by_cases hv : (scSetB32Seckey seckey).2 = true
      · rw [if_pos hv] at hst
        have hv' := (scSetB32Seckey_iff seckey).1 hv
        have hkey : signKey seckey = ((beNat seckey : ℕ) : Fn) := by
          rw [signKey, if_pos hv', take32 hk]
        have hkv := hv'
        rw [take32 hk] at hkv
        rw [hkey] at hst hu
        obtain ⟨ret, b, -, -, -, k1, kn, hr, hs⟩ := hu
        rw [take32 hm] at hs hst
        have hne := smul_G_ne (cast_ne_zero hkv.1 hkv.2)
        obtain ⟨h4, R, hR, hKey⟩ := signed_recovery (d := ((beNat seckey : ℕ) : Fn))
          (z := msgScalar msg) (cast_ne_zero k1 kn) hr
        refine ⟨_, pubkeyCreate_valid hctx' old' hv'.1 hv'.2, ?_⟩
        rw [← hsig, hst, recover_some old'' h4 hm hr (mt lowS_eq_zero.1 hs) hR
          (by rw [hKey]; exact hne), hKey, take32 hk]
      · rw [if_neg hv] at hst
        rw [hst] at hret
        simp [cInt] at hret

/-- The recoverable signature holds the same `r` and `s` as the plain one for the same arguments. -/
theorem C13_same_signature {ctx : Ctx} (hctx : LiveCtx ctx) {fuel : ℕ} {msg seckey : Bytes}
    (nf : Option NonceFn) (data : Option Bytes) (old old' old'' : Bytes) {sig : Bytes}
    (h : ecdsaSignRecoverable fuel ctx (some old) (some msg) (some seckey) nf data =
      some ⟨1, 0, some sig⟩) :
    ∃ plain, ecdsaSign fuel ctx (some old') (some msg) (some seckey) nf data =
        some ⟨1, 0, some plain⟩ ∧
      recoverableConvert (some old'') (some sig) = ⟨1, 0, some plain⟩ := by
  rw [signRecoverable_eq hctx] at h
  rw [sign_eq hctx]
  cases hi : ecdsaSignInner fuel ctx msg seckey nf data with
  | none => rw [hi] at h; cases h
  | some st =>
    rw [hi] at h
    have h := Option.some.inj h
    have hret : cInt st.ret = 1 := congrArg Out.ret h
    have hsig : recObject st.r st.s st.recid = sig := Option.some.inj (congrArg Out.val h)
    have h4 : st.recid < 4 := by
      obtain ⟨j, -, -, ⟨-, rfl⟩ | ⟨k, hu, hst⟩⟩ := signInner_finish hctx hi
      · exact Nat.zero_lt_succ _
      · obtain ⟨ret, b, -, -, -, k1, kn, hr, hs⟩ := hu
        rw [hst]
        split
        · exact (signed_recovery (cast_ne_zero k1 kn) hr).1
        · exact Nat.zero_lt_succ _
    refine ⟨sigObject st.r st.s, by rw [Option.map_some, hret], ?_⟩
    simp only [recoverableConvert, ← hsig, recoverableLoad_obj _ _ h4]
    rfl

/-- Recoverable signing succeeds exactly when plain signing does. -/
theorem C13_succeeds {ctx : Ctx} (hctx : LiveCtx ctx) {fuel : ℕ} {msg seckey : Bytes}
    (nf : Option NonceFn) (data : Option Bytes) (old old' : Bytes) {plain : Bytes}
    (h : ecdsaSign fuel ctx (some old') (some msg) (some seckey) nf data =
      some ⟨1, 0, some plain⟩) :
    ∃ sig, ecdsaSignRecoverable fuel ctx (some old) (some msg) (some seckey) nf data =
      some ⟨1, 0, some sig⟩ := by
  rw [sign_eq hctx] at h
  rw [signRecoverable_eq hctx]
  cases hi : ecdsaSignInner fuel ctx msg seckey nf data with
  | none => rw [hi] at h; cases h
  | some st =>
    rw [hi] at h
    have hret : cInt st.ret = 1 := congrArg Out.ret (Option.some.inj h)
    exact ⟨_, by rw [Option.map_some, hret]⟩

/-- With an invalid secret key recoverable signing returns 0 and zeroes the object. -/
theorem C13_invalid_key {ctx : Ctx} (hctx : LiveCtx ctx) {fuel : ℕ} {msg seckey : Bytes}
    (hk : seckey.length = 32) (hbad : beNat seckey = 0 ∨ n ≤ beNat seckey) (nf : Option NonceFn)
    (data : Option Bytes) (old : Bytes) {o : Out (Option Bytes)}
    (h : ecdsaSignRecoverable fuel ctx (some old) (some msg) (some seckey) nf data = some o) :
    o = ⟨0, 0, some (List.replicate 65 0)⟩ := by
  rw [signRecoverable_eq hctx] at h
  have hv : (scSetB32Seckey seckey).2 = false := by
    rw [Bool.eq_false_iff, Ne, scSetB32Seckey_iff, take32 hk]; omega
  have hz : recObject 0 0 0 = List.replicate 65 0 := by decide +kernel
  cases hi : ecdsaSignInner fuel ctx msg seckey nf data with
  | none => rw [hi] at h; cases h
  | some st =>
    rw [hi] at h
    have h := Option.some.inj h
    obtain ⟨j, -, -, ⟨-, rfl⟩ | ⟨k, hu, hst⟩⟩ := signInner_finish hctx hi
    · rw [← h, ← hz]; rfl
    · rw [hv, if_neg (by simp)] at hst
      rw [← h, hst, ← hz]; rfl

/-- The key `n`, with a nonce function that succeeds at once. -/
example : ∃ ctx : Ctx, LiveCtx ctx ∧ ∀ o, ecdsaSignRecoverable 1 ctx (some []) (some (beBytes 32 9))
    (some (beBytes 32 n)) (some fun _ _ _ _ _ _ => some (1, beBytes 32 5)) none = some o →
      o = ⟨0, 0, some (List.replicate 65 0)⟩ := by
  have hctx := LiveCtx.create (junk := contextStatic comb22) (flags := 1) (Or.inr (Or.inl rfl)) rfl
  exact ⟨_, hctx, fun o h => C13_invalid_key hctx (by decide +kernel) (Or.inr (by decide +kernel)) _ _ _ h⟩

/-- Recoverable signing does return 1 in a concrete case (that of C10). -/
example : ∃ (ctx : Ctx) (sig : Bytes), LiveCtx ctx ∧
    ecdsaSignRecoverable 2 ctx (some []) (some (List.replicate 32 0)) (some (beBytes 32 1))
      (some countingNonce) none = some ⟨1, 0, some sig⟩ := by
  have hctx := LiveCtx.create (junk := contextStatic comb22) (flags := 1) (Or.inr (Or.inl rfl)) rfl
  have hz : msgScalar (List.replicate 32 0) = 0 := by decide +kernel
  have hd : beNat (beBytes 32 1) = 1 := by decide +kernel
  obtain ⟨plain, h⟩ := C10_sign_succeeds hctx (fuel := 2) (msg := List.replicate 32 0)
    (seckey := beBytes 32 1) (by simp) (Hash.beBytes_length _ _) (by rw [hd])
    (by rw [hd]; decide +kernel) countingNonce none [] (j := 1) (by omega)
    (fun l hl => by
      obtain rfl : l = 0 := by omega
      exact countingNonce_zero _ _)
    ⟨1, by
      apply countingNonce_one
      rw [hd, hz, ecdsaS]
      simpa using ecdsaR_one_ne_zero⟩
  obtain ⟨sig, h⟩ := C13_succeeds hctx _ _ [] [] h
  exact ⟨_, sig, hctx, h⟩

end Secp
