import Verif.Proof.Ecdsa

/-! # The signing loop -/

namespace Secp
open WeierstrassCurve Model Spec

theorem recid_bits (a b c : Prop) [Decidable a] [Decidable c] {y : ℕ} (hb : b ↔ y % 2 = 1)
    [Decidable b] :
    (((if a then 2 else 0) ||| (if b then 1 else 0)) ^^^ (if c then 1 else 0) : ℕ) =
      (if a then 2 else 0) + (if c then 1 - y % 2 else y % 2) := by
  have h2 := Nat.mod_two_eq_zero_or_one y
  by_cases ha : a <;> by_cases hc : c <;> rcases h2 with h | h
  all_goals simp only [hb, h, ha, hc, if_true, if_false] ; rfl

theorem ecdsaSigSign_recid {gen : GenCtx} (hg : GenCtxOk gen) (d z : Fn) {k : Fn} (hk : k ≠ 0) :
    (ecdsaSigSign gen d z k).recid = ecdsaRecid d z k := by
  rw [(ecdsaSigSign_rep hg d z hk).2.2.2, ecdsaRecid]
  exact recid_bits _ _ _ Iff.rfl

/-- The calls that the loop makes. -/
def nonceCall (nf : NonceFn) (msg seckey : Bytes) (data : Option Bytes) (j : ℕ) : NonceCall :=
  nf j msg seckey none data (UInt32.ofNat j)

section
variable {gen : GenCtx} (hg : GenCtxOk gen) (nf : NonceFn) (msg seckey : Bytes) (data : Option Bytes)
  (d z : Fn)

theorem signLoop_usable (hg : GenCtxOk gen) {i k : ℕ} (h : NonceUsable d z (nonceCall nf msg seckey data i) k)
    (fuel : ℕ) (st : SignSt) :
    signLoop gen nf msg seckey data d z (fuel + 1) i st =
      some ⟨ecdsaR k, lowS (ecdsaS d z k), ecdsaRecid d z k, true⟩ := by
  obtain ⟨ret, b, hc, hret, hb, h1, hn, hr, hs⟩ := h
  rw [nonceCall] at hc
  have hv : (scSetB32Seckey b).2 = true := by rw [scSetB32Seckey_iff, hb]; exact ⟨h1, hn⟩
  have hk := (scSetB32Seckey_val hv)
  rw [hb] at hk
  rw [hk.1] at hk
  have hsg := ecdsaSigSign_rep hg d z hk.2
  have hrec := ecdsaSigSign_recid hg d z hk.2
  rw [signLoop, hc]
  simp only
  rw [if_neg hret, if_pos hv, (scSetB32Seckey_val hv).1, hb, if_pos (hsg.2.2.1.2 ⟨hr, hs⟩), hsg.1, hsg.2.1,
    hrec]

theorem signLoop_failed {i : ℕ} (h : NonceFailed (nonceCall nf msg seckey data i))
    (fuel : ℕ) (st : SignSt) :
    signLoop gen nf msg seckey data d z (fuel + 1) i st = some { st with ret := false } := by
  obtain ⟨b, hc⟩ := h
  rw [nonceCall] at hc
  rw [signLoop, hc]
  rfl

theorem signLoop_skipped (hg : GenCtxOk gen) {i : ℕ} (h : NonceSkipped d z (nonceCall nf msg seckey data i))
    (fuel : ℕ) (st : SignSt) :
    ∃ st', signLoop gen nf msg seckey data d z (fuel + 1) i st =
      signLoop gen nf msg seckey data d z fuel (i + 1) st' := by
  obtain ⟨ret, b, hc, hret, hno⟩ := h
  have hc' := hc
  rw [nonceCall] at hc'
  rw [signLoop, hc']
  simp only
  rw [if_neg hret]
  by_cases hv : (scSetB32Seckey b).2 = true
  · rw [if_pos hv]
    have hk := (scSetB32Seckey_val hv)
    have hsg := ecdsaSigSign_rep hg d z hk.2
    rw [if_neg]
    · exact ⟨_, rfl⟩
    · intro hcon
      rw [hsg.2.2.1, hk.1] at hcon
      obtain ⟨h1, h2⟩ := (scSetB32Seckey_iff b).1 hv
      exact hno ⟨_, ret, b, hc, hret, rfl, h1, h2, hcon⟩
  · rw [if_neg hv]
    exact ⟨_, rfl⟩

/-- The loop finishes with call `j` when the calls before it were skipped. -/
theorem signLoop_skip (hg : GenCtxOk gen) (m : ℕ) : ∀ (i fuel : ℕ) (st : SignSt),
    (∀ l, i ≤ l → l < i + m → NonceSkipped d z (nonceCall nf msg seckey data l)) →
    ∃ st', signLoop gen nf msg seckey data d z (fuel + m) i st =
      signLoop gen nf msg seckey data d z fuel (i + m) st' := by
  induction m with
  | zero => intro i fuel st _; exact ⟨st, rfl⟩
  | succ m ih =>
    intro i fuel st h
    obtain ⟨st1, h1⟩ := signLoop_skipped nf msg seckey data d z hg (h i (le_refl _) (by omega))
      (fuel + m) st
    obtain ⟨st2, h2⟩ := ih (i + 1) fuel st1 (fun l h3 h4 => h l (by omega) (by omega))
    refine ⟨st2, ?_⟩
    rw [← add_assoc, h1, h2, show i + 1 + m = i + (m + 1) by omega]

theorem nonceCall_cases (c : NonceCall) : c = none ∨ NonceFailed c ∨ NonceSkipped d z c ∨
    ∃ k, NonceUsable d z c k := by
  match c with
  | none => exact Or.inl rfl
  | some (ret, b) =>
    by_cases h0 : ret = 0
    · exact Or.inr (Or.inl ⟨b, by rw [h0]⟩)
    · by_cases hu : ∃ k, NonceUsable d z (some (ret, b)) k
      · exact Or.inr (Or.inr (Or.inr hu))
      · exact Or.inr (Or.inr (Or.inl ⟨ret, b, rfl, h0, hu⟩))

theorem signLoop_finish (hg : GenCtxOk gen) (fuel : ℕ) : ∀ (i : ℕ) (st st' : SignSt),
    signLoop gen nf msg seckey data d z fuel i st = some st' →
    ∃ j, i ≤ j ∧ j < i + fuel ∧
      (∀ l, i ≤ l → l < j → NonceSkipped d z (nonceCall nf msg seckey data l)) ∧
      ((NonceFailed (nonceCall nf msg seckey data j) ∧ st'.ret = false) ∨
       ∃ k, NonceUsable d z (nonceCall nf msg seckey data j) k ∧
        st' = ⟨ecdsaR k, lowS (ecdsaS d z k), ecdsaRecid d z k, true⟩) := by
  induction fuel with
  | zero => intro i st st' h; simp [signLoop] at h
  | succ fuel ih =>
    intro i st st' h
    rcases nonceCall_cases d z (nonceCall nf msg seckey data i) with h1 | h1 | h1 | ⟨k, h1⟩
    · rw [nonceCall] at h1
      rw [signLoop, h1] at h
      cases h
    · rw [signLoop_failed nf msg seckey data d z h1] at h
      refine ⟨i, le_refl _, by omega, fun l h3 h4 => by omega, Or.inl ⟨h1, ?_⟩⟩
      rw [← Option.some.inj h]
    · obtain ⟨st1, h2⟩ := signLoop_skipped nf msg seckey data d z hg h1 fuel st
      rw [h2] at h
      obtain ⟨j, j1, j2, j3, j4⟩ := ih _ _ _ h
      refine ⟨j, by omega, by omega, fun l h3 h4 => ?_, j4⟩
      rcases Nat.eq_or_lt_of_le h3 with rfl | h5
      · exact h1
      · exact j3 l h5 h4
    · rw [signLoop_usable nf msg seckey data d z hg h1] at h
      exact ⟨i, le_refl _, by omega, fun l h3 h4 => by omega,
        Or.inr ⟨k, h1, (Option.some.inj h).symm⟩⟩

end

/-- The scalar that signing uses: the secret key, or 1 if it is not valid. -/
def signKey (seckey : Bytes) : Fn :=
  if 0 < beNat (seckey.take 32) ∧ beNat (seckey.take 32) < n then
    ((beNat (seckey.take 32) : ℕ) : Fn) else 1

theorem signKey_eq (seckey : Bytes) :
    scCmov (scSetB32Seckey seckey).1 1 (!(scSetB32Seckey seckey).2) = signKey seckey := by
  unfold signKey
  cases h : (scSetB32Seckey seckey).2
  · rw [if_neg]
    · rfl
    · rw [← scSetB32Seckey_iff, h]; simp
  · rw [if_pos ((scSetB32Seckey_iff seckey).1 h), ← (scSetB32Seckey_val h).1]
    rfl

theorem scSetB32_msg (msg : Bytes) : (scSetB32 msg).1 = msgScalar (msg.take 32) := rfl

/-- Everything `secp256k1_ecdsa_sign_inner` can do. -/
theorem signInner_finish {ctx : Ctx} (hctx : LiveCtx ctx) {fuel : ℕ} {msg seckey : Bytes}
    {nf : Option NonceFn} {data : Option Bytes} {st : SignSt}
    (h : ecdsaSignInner fuel ctx msg seckey nf data = some st) :
    ∃ j, j < fuel ∧
      (∀ l < j, NonceSkipped (signKey seckey) (msgScalar (msg.take 32))
        (nonceCall (nonceFnOrDefault nf) msg seckey data l)) ∧
      ((NonceFailed (nonceCall (nonceFnOrDefault nf) msg seckey data j) ∧ st = ⟨0, 0, 0, false⟩) ∨
       ∃ k, NonceUsable (signKey seckey) (msgScalar (msg.take 32))
          (nonceCall (nonceFnOrDefault nf) msg seckey data j) k ∧
        st = if (scSetB32Seckey seckey).2 then
          ⟨ecdsaR k, lowS (ecdsaS (signKey seckey) (msgScalar (msg.take 32)) k),
            ecdsaRecid (signKey seckey) (msgScalar (msg.take 32)) k, true⟩
          else ⟨0, 0, 0, false⟩) := by
  unfold ecdsaSignInner at h
  simp only at h
  rw [signKey_eq, scSetB32_msg] at h
  cases hl : signLoop ctx.gen (nonceFnOrDefault nf) msg seckey data (signKey seckey)
      (msgScalar (msg.take 32)) fuel 0 ⟨0, 0, 0, false⟩ with
  | none => rw [hl] at h; cases h
  | some st1 =>
    rw [hl] at h
    simp only at h
    obtain ⟨j, -, j2, j3, j4⟩ := signLoop_finish _ _ _ _ _ _ hctx.ok _ _ _ _ hl
    refine ⟨j, by omega, fun l hl => j3 l (by omega) hl, ?_⟩
    rcases j4 with ⟨j4, j5⟩ | ⟨k, j4, j5⟩
    · left
      refine ⟨j4, ?_⟩
      rw [← Option.some.inj h, j5]
      simp [scCmov]
    · right
      refine ⟨k, j4, ?_⟩
      rw [← Option.some.inj h, j5]
      cases hv : (scSetB32Seckey seckey).2 <;> simp [scCmov]

theorem signInner_total {ctx : Ctx} (hctx : LiveCtx ctx) {fuel : ℕ} {msg seckey : Bytes}
    {nf : Option NonceFn} {data : Option Bytes} {j : ℕ} (hj : j < fuel)
    (hs : ∀ l < j, NonceSkipped (signKey seckey) (msgScalar (msg.take 32))
        (nonceCall (nonceFnOrDefault nf) msg seckey data l))
    (he : NonceFailed (nonceCall (nonceFnOrDefault nf) msg seckey data j) ∨
      ∃ k, NonceUsable (signKey seckey) (msgScalar (msg.take 32))
          (nonceCall (nonceFnOrDefault nf) msg seckey data j) k) :
    ∃ st, ecdsaSignInner fuel ctx msg seckey nf data = some st := by
  unfold ecdsaSignInner
  simp only
  rw [signKey_eq, scSetB32_msg]
  obtain ⟨f, rfl⟩ : ∃ f, fuel = f + 1 + j := ⟨fuel - 1 - j, by omega⟩
  obtain ⟨st', h⟩ := signLoop_skip (gen := ctx.gen) (nonceFnOrDefault nf) msg seckey data
    (signKey seckey) (msgScalar (msg.take 32)) hctx.ok j 0 (f + 1) ⟨0, 0, 0, false⟩
    (fun l _ h2 => hs l (by omega))
  rw [h, zero_add]
  rcases he with he | ⟨k, he⟩
  · rw [signLoop_failed _ _ _ _ _ _ he]
    exact ⟨_, rfl⟩
  · rw [signLoop_usable _ _ _ _ _ _ hctx.ok he]
    exact ⟨_, rfl⟩

end Secp
