import Verif.Props.C16
import Verif.Props.C13

/-! # C38: context randomization never changes results

`LiveCtx` allows every sequence of randomizations with any seeds or NULL (and cloning and callback
changes).  The functions that use the blinded multiplication are public key creation and the
signing functions; no other function reads the blinding. -/

namespace Secp
open Model Spec

/-- Randomizing a live context succeeds without a callback, for every seed and for NULL, and the
context stays live. -/
theorem C38_randomize_succeeds {ctx : Ctx} (h : LiveCtx ctx) (seed : Option Bytes) :
    (contextRandomize ctx seed).ret = 1 ∧ (contextRandomize ctx seed).illegal = 0 ∧
      LiveCtx (contextRandomize ctx seed).val := by
  refine ⟨?_, ?_, h.randomize seed⟩ <;>
    simp [contextRandomize, ecmultGenIsBuilt, h.ok.built]

/-- After any sequence of randomizations, public key creation gives for every input, valid or not,
what it gave before. -/
theorem C38_pubkey_create_same {ctx : Ctx} (h : LiveCtx ctx) (seeds : List (Option Bytes))
    (old seckey : Bytes) (hl : seckey.length = 32) :
    ecPubkeyCreate (seeds.foldl (fun c s => (contextRandomize c s).val) ctx) (some old) (some seckey)
      = ecPubkeyCreate ctx (some old) (some seckey) := by
  have h' : LiveCtx (seeds.foldl (fun c s => (contextRandomize c s).val) ctx) := by
    induction seeds generalizing ctx with
    | nil => exact h
    | cons s seeds ih => exact ih (h.randomize s)
  by_cases hv : 1 ≤ beNat seckey ∧ beNat seckey < n
  · rw [C16_pubkey_create h' old hl hv.1 hv.2, C16_pubkey_create h old hl hv.1 hv.2]
  · have hv' : beNat seckey = 0 ∨ n ≤ beNat seckey := by omega
    rw [C16_pubkey_create_invalid h' old hl hv', C16_pubkey_create_invalid h old hl hv']

/-- Three calls, one of them without a seed. -/
example : ∃ ctx, LiveCtx ctx ∧ ecPubkeyCreate ([some (List.replicate 32 1), none, some (List.replicate 32 2)].foldl
    (fun c s => (contextRandomize c s).val) ctx) (some []) (some (beBytes 32 5)) =
      ecPubkeyCreate ctx (some []) (some (beBytes 32 5)) := by
  have h := LiveCtx.create (junk := contextStatic comb22) (flags := 1) (Or.inr (Or.inl rfl)) rfl
  exact ⟨_, h, C38_pubkey_create_same h _ _ _ (Hash.beBytes_length _ _)⟩

/-- The secret multiplication itself gives the same affine point in every live context: the group
element `k • G`. -/
theorem C38_generator_multiplication_same {ctx ctx' : Ctx} (h : LiveCtx ctx) (h' : LiveCtx ctx')
    (k : Fn) (hk : k ≠ 0) :
    geSetGej (ecmultGen ctx.gen k) = geSetGej (ecmultGen ctx'.gen k) ∧
      GeRep 7 (geSetGej (ecmultGen ctx.gen k)) (k • G) := by
  have r := geSetGej_rep (ecmultGen_rep h.ok k)
  have r' := geSetGej_rep (ecmultGen_rep h'.ok k)
  refine ⟨?_, r⟩
  have hne := smul_G_ne hk
  have ex := (geRep_x r hne).trans (geRep_x r' hne).symm
  have ey := (geRep_y r hne).trans (geRep_y r' hne).symm
  have ei := (geRep_inf r hne).trans (geRep_inf r' hne).symm
  have ex := ZMod.val_injective p ex
  have ey := ZMod.val_injective p ey
  revert ex ey ei
  generalize geSetGej (ecmultGen ctx.gen k) = a
  generalize geSetGej (ecmultGen ctx'.gen k) = b
  intro ex ey ei
  cases a; cases b; simp_all

/-- A fresh context and a randomized one. -/
example : ∃ ctx ctx', LiveCtx ctx ∧ LiveCtx ctx' ∧
    geSetGej (ecmultGen ctx.gen 5) = geSetGej (ecmultGen ctx'.gen 5) := by
  have h := LiveCtx.create (junk := contextStatic comb22) (flags := 1) (Or.inr (Or.inl rfl)) rfl
  have h' := (C38_randomize_succeeds h (some (List.replicate 32 1))).2.2
  exact ⟨_, _, h, h', (C38_generator_multiplication_same h h' 5 (by decide +kernel)).1⟩

theorem ecdsaSigSign_same {ctx ctx' : Ctx} (h : LiveCtx ctx) (h' : LiveCtx ctx') (d z : Fn) {k : Fn}
    (hk : k ≠ 0) : ecdsaSigSign ctx.gen d z k = ecdsaSigSign ctx'.gen d z k := by
  have e := (C38_generator_multiplication_same h h' k hk).1
  unfold ecdsaSigSign
  simp only
  rw [e]

theorem signLoop_same {ctx ctx' : Ctx} (h : LiveCtx ctx) (h' : LiveCtx ctx') (nf : NonceFn)
    (msg seckey : Bytes) (data : Option Bytes) (d z : Fn) (fuel : ℕ) : ∀ (i : ℕ) (st : SignSt),
    signLoop ctx.gen nf msg seckey data d z fuel i st =
      signLoop ctx'.gen nf msg seckey data d z fuel i st := by
  induction fuel with
  | zero => intro i st; rfl
  | succ fuel ih =>
    intro i st
    rw [signLoop, signLoop]
    cases nf i msg seckey none data (UInt32.ofNat i) with
    | none => rfl
    | some c =>
      obtain ⟨ret, b⟩ := c
      simp only
      by_cases hv : (scSetB32Seckey b).2 = true
      · rw [if_pos hv, if_pos hv, ecdsaSigSign_same h h' d z (scSetB32Seckey_val hv).2]
        simp only [ih]
      · rw [if_neg hv, if_neg hv]
        simp only [ih]

theorem signInner_same {ctx ctx' : Ctx} (h : LiveCtx ctx) (h' : LiveCtx ctx') (fuel : ℕ)
    (msg seckey : Bytes) (nf : Option NonceFn) (data : Option Bytes) :
    ecdsaSignInner fuel ctx msg seckey nf data = ecdsaSignInner fuel ctx' msg seckey nf data := by
  unfold ecdsaSignInner
  simp only
  rw [signLoop_same h h']

/-- Signing gives the same outcome in every two live contexts, for all arguments, NULL included. -/
theorem C38_ecdsa_sign_same {ctx ctx' : Ctx} (h : LiveCtx ctx) (h' : LiveCtx ctx') (fuel : ℕ)
    (sig msg seckey : Option Bytes) (nf : Option NonceFn) (data : Option Bytes) :
    ecdsaSign fuel ctx sig msg seckey nf data = ecdsaSign fuel ctx' sig msg seckey nf data ∧
    ecdsaSignRecoverable fuel ctx sig msg seckey nf data =
      ecdsaSignRecoverable fuel ctx' sig msg seckey nf data := by
  unfold ecdsaSign ecdsaSignRecoverable
  simp only [ecmultGenIsBuilt, h.ok.built, h'.ok.built, signInner_same h h']
  exact ⟨trivial, trivial⟩

/-- A fresh context, a seed, and the randomized context. -/
example : ∃ (ctx : Ctx) (seed : Bytes), LiveCtx ctx ∧ seed.length = 32 ∧
    LiveCtx (contextRandomize ctx (some seed)).val :=
  ⟨_, List.replicate 32 7,
    LiveCtx.create (junk := contextStatic comb22) (flags := 1) (Or.inr (Or.inl rfl)) rfl, by simp,
    LiveCtx.randomize (LiveCtx.create (junk := contextStatic comb22) (flags := 1)
      (Or.inr (Or.inl rfl)) rfl) _⟩

end Secp
