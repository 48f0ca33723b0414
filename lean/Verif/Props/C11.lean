import Verif.Props.C10

/-! # C11: ECDSA signing fails closed

`nonceCall nf msg seckey data j` is the outcome of the call that the library makes with attempt
counter `j`.  The vocabulary `NonceUsable`, `NonceFailed`, `NonceSkipped` is in
`Verif/Spec/Ecdsa.lean`. -/

namespace Secp
open Model Spec

/-- The nonce function is called with the message, the key, no algorithm name, the caller's data and
the attempt number. -/
theorem C11_calls (nf : NonceFn) (msg seckey : Bytes) (data : Option Bytes) (j : ℕ) :
    nonceCall nf msg seckey data j = nf j msg seckey none data (UInt32.ofNat j) := rfl

/-- With an invalid secret key signing returns 0 and zeroes the signature, whatever the nonce function
does. -/
theorem C11_invalid_key {ctx : Ctx} (hctx : LiveCtx ctx) {fuel : ℕ} {msg seckey : Bytes}
    (hk : seckey.length = 32) (hbad : beNat seckey = 0 ∨ n ≤ beNat seckey) (nf : Option NonceFn)
    (data : Option Bytes) (old : Bytes) {o : Out (Option Bytes)}
    (h : ecdsaSign fuel ctx (some old) (some msg) (some seckey) nf data = some o) :
    o = ⟨0, 0, some (List.replicate 64 0)⟩ := by
  rw [sign_eq hctx] at h
  have hv : (scSetB32Seckey seckey).2 = false := by
    rw [Bool.eq_false_iff, Ne, scSetB32Seckey_iff, take32 hk]; omega
  have hz : sigObject 0 0 = List.replicate 64 0 := by decide +kernel
  cases hi : ecdsaSignInner fuel ctx msg seckey nf data with
  | none => rw [hi] at h; cases h
  | some st =>
    rw [hi] at h
    have h := Option.some.inj h
    obtain ⟨j, -, -, ⟨-, rfl⟩ | ⟨k, hu, hst⟩⟩ := signInner_finish hctx hi
    · rw [← h, ← hz]; rfl
    · rw [hv, if_neg (by simp)] at hst
      rw [← h, hst, ← hz]; rfl

/-- The key 0 with a nonce function that succeeds at once. -/
example : ∃ ctx : Ctx, LiveCtx ctx ∧ ∀ o, ecdsaSign 1 ctx (some []) (some (beBytes 32 9)) (some (beBytes 32 0))
    (some fun _ _ _ _ _ _ => some (1, beBytes 32 5)) none = some o → o = ⟨0, 0, some (List.replicate 64 0)⟩ := by
  have hctx := LiveCtx.create (junk := contextStatic comb86) (flags := 1) (Or.inr (Or.inr (Or.inl rfl))) rfl
  exact ⟨_, hctx, fun o h => C11_invalid_key hctx (by decide +kernel) (Or.inl (by decide +kernel)) _ _ _ h⟩

/-- With a valid secret key `d`: whenever signing ends, it is at some attempt `j`, all attempts before
`j` having been skipped, and either attempt `j` reported failure and the result is 0 with a zeroed
signature, or attempt `j` gave a usable nonce `k` and the result is 1 with the ECDSA signature made
with `k`. -/
theorem C11_sign_result {ctx : Ctx} (hctx : LiveCtx ctx) {fuel : ℕ} {msg seckey : Bytes}
    (hm : msg.length = 32) (hk : seckey.length = 32) (h1 : 1 ≤ beNat seckey) (hn : beNat seckey < n)
    (nf : NonceFn) (data : Option Bytes) (old : Bytes) {o : Out (Option Bytes)}
    (h : ecdsaSign fuel ctx (some old) (some msg) (some seckey) (some nf) data = some o) :
    let d : Fn := (beNat seckey : ℕ)
    let z := msgScalar msg
    ∃ j, (∀ l < j, NonceSkipped d z (nonceCall nf msg seckey data l)) ∧
      ((NonceFailed (nonceCall nf msg seckey data j) ∧ o = ⟨0, 0, some (List.replicate 64 0)⟩) ∨
       ∃ k : ℕ, NonceUsable d z (nonceCall nf msg seckey data j) k ∧
        o = ⟨1, 0, some (sigObject (ecdsaR k) (lowS (ecdsaS d z k)))⟩) := by
  rw [sign_eq hctx] at h
  have hv : (scSetB32Seckey seckey).2 = true := by
    rw [scSetB32Seckey_iff, take32 hk]; omega
  have hkey : signKey seckey = ((beNat seckey : ℕ) : Fn) := by
    rw [signKey, if_pos ((scSetB32Seckey_iff seckey).1 hv), take32 hk]
  have hz : sigObject 0 0 = List.replicate 64 0 := by decide +kernel
  cases hi : ecdsaSignInner fuel ctx msg seckey (some nf) data with
  | none => rw [hi] at h; cases h
  | some st =>
    rw [hi] at h
    have h := Option.some.inj h
    obtain ⟨j, -, h2, h3⟩ := signInner_finish hctx hi
    rw [hkey, take32 hm] at h2 h3
    refine ⟨j, h2, ?_⟩
    rcases h3 with ⟨h3, rfl⟩ | ⟨k, hu, hst⟩
    · exact Or.inl ⟨h3, by rw [← h, ← hz]; rfl⟩
    · rw [if_pos hv] at hst
      exact Or.inr ⟨k, hu, by rw [← h, hst]; rfl⟩

/-- Signing ends as soon as the nonce function fails or gives a usable nonce. -/
theorem C11_sign_ends {ctx : Ctx} (hctx : LiveCtx ctx) {fuel : ℕ} {msg seckey : Bytes}
    (hm : msg.length = 32) (hk : seckey.length = 32) (h1 : 1 ≤ beNat seckey) (hn : beNat seckey < n)
    (nf : NonceFn) (data : Option Bytes) (old : Bytes) {j : ℕ} (hj : j < fuel)
    (hskip : ∀ l < j, NonceSkipped ((beNat seckey : ℕ) : Fn) (msgScalar msg)
      (nonceCall nf msg seckey data l))
    (hend : NonceFailed (nonceCall nf msg seckey data j) ∨
      ∃ k, NonceUsable ((beNat seckey : ℕ) : Fn) (msgScalar msg) (nonceCall nf msg seckey data j) k) :
    (∃ o, ecdsaSign fuel ctx (some old) (some msg) (some seckey) (some nf) data = some o) := by
  have hv : (scSetB32Seckey seckey).2 = true := by
    rw [scSetB32Seckey_iff, take32 hk]; omega
  have hkey : signKey seckey = ((beNat seckey : ℕ) : Fn) := by
    rw [signKey, if_pos ((scSetB32Seckey_iff seckey).1 hv), take32 hk]
  obtain ⟨st, hst⟩ := signInner_total hctx (nf := some nf) hj (by rw [hkey, take32 hm]; exact hskip)
    (by rw [hkey, take32 hm]; exact hend)
  exact ⟨_, by rw [sign_eq hctx, hst]; rfl⟩

/-- Nonce functions of all three kinds exist: `countingNonce` writes the number of the call, so its
call 0 is skipped and its call 1 is usable (with secret key 1 and message 0); and one that fails. -/
example : NonceSkipped 1 0 (nonceCall countingNonce [] [] none 0) ∧
    NonceUsable 1 0 (nonceCall countingNonce [] [] none 1) 1 ∧
    NonceFailed (nonceCall (fun _ _ _ _ _ _ => some (0, [])) [] [] none 0) := by
  refine ⟨countingNonce_zero _ _, countingNonce_one ?_, ⟨[], rfl⟩⟩
  rw [ecdsaS]
  simpa using ecdsaR_one_ne_zero

end Secp
