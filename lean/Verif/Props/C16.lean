import Verif.Proof.Cases

/-! # C16: secret key validity and public key derivation

`beNat seckey` is the integer that the 32 bytes encode.  `LiveCtx ctx`: the context was made by
`secp256k1_context_create` and then cloned, randomized and given callbacks in any way. -/

namespace Secp
open Model Spec

/-- `secp256k1_ec_seckey_verify` returns 1 exactly on the encodings of integers in `[1, n-1]`, else
0. -/
theorem C16_seckey_verify {seckey : Bytes} (hl : seckey.length = 32) :
    (ecSeckeyVerify (some seckey) = ⟨1, 0, ()⟩ ↔ 1 ≤ beNat seckey ∧ beNat seckey ≤ n - 1) ∧
    (ecSeckeyVerify (some seckey) = ⟨0, 0, ()⟩ ↔ beNat seckey = 0 ∨ n ≤ beNat seckey) := by
  have h := scSetB32Seckey_iff seckey
  rw [take32 hl] at h
  have hn := n_pos
  simp only [ecSeckeyVerify]
  cases hb : (scSetB32Seckey seckey).2
  · have h' : ¬ (0 < beNat seckey ∧ beNat seckey < n) := by rw [← h, hb]; simp
    simp only [cInt, Out.mk.injEq, reduceCtorEq, Bool.false_eq_true, if_false]
    constructor
    · constructor
      · intro h; simp at h
      · omega
    · constructor
      · intro; omega
      · intro; simp
  · have h' := h.1 hb
    simp only [cInt, Out.mk.injEq]
    constructor
    · constructor
      · intro; omega
      · intro; simp
    · constructor
      · intro h; simp at h
      · omega

/-- The largest key and its successor. -/
example : ecSeckeyVerify (some (beBytes 32 (n - 1))) = ⟨1, 0, ()⟩ ∧
    ecSeckeyVerify (some (beBytes 32 n)) = ⟨0, 0, ()⟩ :=
  ⟨(C16_seckey_verify (by decide +kernel)).1.2 (by decide +kernel),
    (C16_seckey_verify (by decide +kernel)).2.2 (by decide +kernel)⟩

/-- For a valid secret key `secp256k1_ec_pubkey_create` returns 1 and stores `d • G`. -/
theorem C16_pubkey_create {ctx : Ctx} (hctx : LiveCtx ctx) (old : Bytes) {seckey : Bytes}
    (hl : seckey.length = 32) (h1 : 1 ≤ beNat seckey) (hn : beNat seckey < n) :
    ecPubkeyCreate ctx (some old) (some seckey) =
      ⟨1, 0, some (keyObject (beNat seckey • G))⟩ := by
  have := pubkeyCreate_valid hctx old (seckey := seckey) (by rw [take32 hl]; omega)
    (by rw [take32 hl]; exact hn)
  rw [take32 hl, ← val_smul, ZMod.val_natCast, Nat.mod_eq_of_lt hn] at this
  exact this

/-- The key 5. -/
example : ∃ ctx, ecPubkeyCreate ctx (some []) (some key5) = ⟨1, 0, some (keyObject (5 • G))⟩ := by
  obtain ⟨ctx, h⟩ := exists_live
  have := C16_pubkey_create h [] key5_len key5_pos key5_lt
  rw [key5_val] at this
  exact ⟨ctx, this⟩

/-- For every other 32 bytes it returns 0 and zeroes the key object. -/
theorem C16_pubkey_create_invalid {ctx : Ctx} (hctx : LiveCtx ctx) (old : Bytes) {seckey : Bytes}
    (hl : seckey.length = 32) (h : beNat seckey = 0 ∨ n ≤ beNat seckey) :
    ecPubkeyCreate ctx (some old) (some seckey) = ⟨0, 0, some (List.replicate 64 0)⟩ :=
  pubkeyCreate_invalid hctx old (by rw [take32 hl]; exact h)

/-- The key `n`. -/
example : ∃ ctx, ecPubkeyCreate ctx (some [1]) (some keyN) = ⟨0, 0, some (List.replicate 64 0)⟩ := by
  obtain ⟨ctx, h⟩ := exists_live
  exact ⟨ctx, C16_pubkey_create_invalid h _ keyN_len (Or.inr keyN_val)⟩

/-- The public key is never the all-zero object. -/
theorem C16_pubkey_create_nonzero {ctx : Ctx} (hctx : LiveCtx ctx) (old : Bytes) {seckey : Bytes}
    (hl : seckey.length = 32) (h1 : 1 ≤ beNat seckey) (hn : beNat seckey < n) :
    ∃ P : Pt, P ≠ 0 ∧ (ecPubkeyCreate ctx (some old) (some seckey)).val = some (keyObject P) := by
  refine ⟨beNat seckey • G, ?_, by rw [C16_pubkey_create hctx old hl h1 hn]⟩
  intro h
  have e : ((beNat seckey : ℕ) : Fn) • G = 0 := by
    rw [← val_smul, ZMod.val_natCast, Nat.mod_eq_of_lt hn, h]
  exact smul_G_ne (cast_ne_zero (by omega) hn) e

/-- Distinct valid secret keys give distinct public key objects, even on different contexts. -/
theorem C16_pubkey_create_injective {ctx ctx' : Ctx} (hctx : LiveCtx ctx) (hctx' : LiveCtx ctx')
    (old old' : Bytes) {a b : Bytes} (ha : a.length = 32) (hb : b.length = 32)
    (a1 : 1 ≤ beNat a) (an : beNat a < n) (b1 : 1 ≤ beNat b) (bn : beNat b < n)
    (h : (ecPubkeyCreate ctx (some old) (some a)).val =
      (ecPubkeyCreate ctx' (some old') (some b)).val) : a = b := by
  rw [C16_pubkey_create hctx old ha a1 an, C16_pubkey_create hctx' old' hb b1 bn] at h
  have h := keyObject_injective (Option.some.inj h)
  have e : ((beNat a : ℕ) : Fn) • G = ((beNat b : ℕ) : Fn) • G := by
    rw [← val_smul, ← val_smul, ZMod.val_natCast, ZMod.val_natCast, Nat.mod_eq_of_lt an,
      Nat.mod_eq_of_lt bn, h]
  have e := smul_left_injective G_ne_zero e
  have e := congrArg ZMod.val e
  rw [ZMod.val_natCast, ZMod.val_natCast, Nat.mod_eq_of_lt an, Nat.mod_eq_of_lt bn] at e
  exact beNat_inj (by rw [ha, hb]) e

/-- The keys 5 and 7 have different public keys. -/
example : ∃ ctx, (ecPubkeyCreate ctx (some []) (some key5)).val ≠ (ecPubkeyCreate ctx (some []) (some key7)).val := by
  obtain ⟨ctx, h⟩ := exists_live
  refine ⟨ctx, fun e => ?_⟩
  have := C16_pubkey_create_injective h h [] [] key5_len key7_len key5_pos key5_lt key7_pos key7_lt e
  revert this
  decide +kernel

/-- A live context exists (fresh, then randomized), and the secret keys 1 and n-1 are valid. -/
example : (∃ ctx, LiveCtx ctx ∧ ctx.gen.cfg = comb86) ∧ (beBytes 32 (n - 1)).length = 32 ∧
    1 ≤ beNat (beBytes 32 (n - 1)) ∧ beNat (beBytes 32 (n - 1)) < n ∧
    n ≤ beNat (beBytes 32 n) := by
  refine ⟨⟨_, LiveCtx.create (junk := contextStatic comb86) (flags := 1) (Or.inr (Or.inr (Or.inl rfl))) rfl,
    rfl⟩, ?_⟩
  decide +kernel

end Secp
