import Verif.Props.C33
import Verif.Props.C38
import Verif.Props.C50

/-! # C38: every other function that reads the blinding gives the same result in all live contexts -/

namespace Secp
open Model Spec

theorem createHelper_same {ctx ctx' : Ctx} (h : LiveCtx ctx) (h' : LiveCtx ctx') (seckey : Bytes) :
    ecPubkeyCreateHelper ctx.gen seckey = ecPubkeyCreateHelper ctx'.gen seckey := by
  have hne : scCmov (scSetB32Seckey seckey).1 1 (!(scSetB32Seckey seckey).2) ≠ 0 := by
    cases hv : (scSetB32Seckey seckey).2
    · exact one_ne_zero
    · exact (scSetB32Seckey_val hv).2
  unfold ecPubkeyCreateHelper
  simp only
  rw [(C38_generator_multiplication_same h h' _ hne).1]

theorem built_eq {ctx : Ctx} (h : LiveCtx ctx) : ecmultGenIsBuilt ctx.gen = true := h.ok.built

/-- Creating public keys, keypairs and ElligatorSwift encodings gives the same outcome in every two live
contexts, for all arguments, NULL and invalid ones included. -/
theorem C38_create_same {ctx ctx' : Ctx} (h : LiveCtx ctx) (h' : LiveCtx ctx') (fuel : ℕ)
    (out seckey aux : Option Bytes) :
    ecPubkeyCreate ctx out seckey = ecPubkeyCreate ctx' out seckey ∧
    keypairCreate ctx out seckey = keypairCreate ctx' out seckey ∧
    ellswiftCreate ctx fuel out seckey aux = ellswiftCreate ctx' fuel out seckey aux := by
  have e := createHelper_same h h'
  unfold ecPubkeyCreate keypairCreate ellswiftCreate
  simp only [built_eq h, built_eq h', e]
  exact ⟨trivial, trivial, trivial⟩

theorem schnorrCore_same {ctx ctx' : Ctx} (h : LiveCtx ctx) (h' : LiveCtx ctx') (msg kp : Bytes)
    (nf : NonceHardened) (nd : Option Bytes) :
    schnorrsigSignCore ctx.gen msg kp nf nd = schnorrsigSignCore ctx'.gen msg kp nf nd := by
  unfold schnorrsigSignCore
  simp only
  generalize nf msg _ _ _ nd = c
  have hne : scCmov (scSetB32 c.2).1 1
      (!((keypairLoad kp).2.2 && decide (c.1 ≠ 0) && !scIsZero (scSetB32 c.2).1)) ≠ 0 := by
    unfold scCmov
    split
    · exact one_ne_zero
    · rename_i hb
      simp [scIsZero] at hb
      exact hb.2
  rw [(C38_generator_multiplication_same h h' _ hne).1]

/-- Every Schnorr signing function gives the same outcome in every two live contexts, for all arguments and
nonce functions. -/
theorem C38_schnorr_sign_any_same {ctx ctx' : Ctx} (h : LiveCtx ctx) (h' : LiveCtx ctx')
    (sig msg kp aux : Option Bytes) (msglen : ℕ) (ex : Option SchnorrExtra) :
    schnorrsigSign32 ctx sig msg kp aux = schnorrsigSign32 ctx' sig msg kp aux ∧
    schnorrsigSign ctx sig msg kp aux = schnorrsigSign ctx' sig msg kp aux ∧
    schnorrsigSignCustom ctx sig msg msglen kp ex = schnorrsigSignCustom ctx' sig msg msglen kp ex := by
  have e : ∀ msglen nf nd, schnorrsigSignInternal ctx sig msg msglen kp nf nd =
      schnorrsigSignInternal ctx' sig msg msglen kp nf nd := by
    intro msglen nf nd
    unfold schnorrsigSignInternal
    simp only [built_eq h, built_eq h', schnorrCore_same h h']
  unfold schnorrsigSign schnorrsigSign32 schnorrsigSignCustom
  simp only [e]
  exact ⟨trivial, trivial, trivial⟩

/-- The MuSig nonces do not depend on the context either. -/
theorem C38_musig_nonce_same {ctx ctx' : Ctx} (hctx : LiveCtx ctx) (hctx' : LiveCtx ctx') (old old' : Bytes)
    {rand : Bytes} (hr : rand.length = 32) (hz : ∃ x ∈ rand, x ≠ 0) {sk : Option Bytes}
    (hs : ∀ s ∈ sk, s.length = 32 ∧ 0 < beNat s ∧ beNat s < n) {P : Pt} (hP : P ≠ 0)
    {cache : Option (List Pt × KeyaggCtx)} (hc : ∀ c ∈ cache, KeyaggOk c.2) {msg ex : Option Bytes}
    (hm : ∀ x ∈ msg, x.length = 32) (he : ∀ x ∈ ex, x.length = 32)
    (h0 : musigNonce rand sk P (cacheKey cache) msg ex 0 ≠ 0)
    (h1 : musigNonce rand sk P (cacheKey cache) msg ex 1 ≠ 0) :
    musigNonceGen ctx (some old) (some old') (some rand) sk (some (keyObject P)) msg (cacheArg cache) ex =
    musigNonceGen ctx' (some old) (some old') (some rand) sk (some (keyObject P)) msg (cacheArg cache) ex := by
  rw [C33_nonce_gen hctx old old' hr hz hs hP hc hm he h0 h1,
    C33_nonce_gen hctx' old old' hr hz hs hP hc hm he h0 h1]

/-- A fresh context and a randomized one, also on an invalid key. -/
example : ∃ ctx ctx', LiveCtx ctx ∧ LiveCtx ctx' ∧
    keypairCreate ctx (some (zeros 96)) (some (beBytes 32 5)) =
      keypairCreate ctx' (some (zeros 96)) (some (beBytes 32 5)) ∧
    ellswiftCreate ctx 9 (some (zeros 64)) (some (beBytes 32 0)) none =
      ellswiftCreate ctx' 9 (some (zeros 64)) (some (beBytes 32 0)) none ∧
    schnorrsigSign32 ctx (some (zeros 64)) (some (zeros 32)) (some (keypairObject 3)) none =
      schnorrsigSign32 ctx' (some (zeros 64)) (some (zeros 32)) (some (keypairObject 3)) none := by
  have h := LiveCtx.create (junk := contextStatic comb22) (flags := 1) (Or.inr (Or.inl rfl)) rfl
  have h' := (C38_randomize_succeeds h (some (List.replicate 32 1))).2.2
  exact ⟨_, _, h, h', (C38_create_same h h' 9 _ _ none).2.1, (C38_create_same h h' 9 _ _ none).2.2,
    (C38_schnorr_sign_any_same h h' _ _ _ none 32 none).1⟩

end Secp
