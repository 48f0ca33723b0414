import Verif.Props.C38
import Verif.Props.C25

/-! # C38 (continued): keypairs and Schnorr signatures do not depend on the randomization -/

namespace Secp
open Model Spec

theorem cmov_one_ne (k : Fn) (a b : Bool) :
    scCmov k 1 (!(a && b && !scIsZero k)) ≠ 0 := by
  cases hz : scIsZero k
  · have : k ≠ 0 := fun h => by rw [(scIsZero_iff k).2 h] at hz; cases hz
    cases a <;> cases b <;> simp [scCmov, this]
  · simp [scCmov]

theorem signCore_same {ctx ctx' : Ctx} (h : LiveCtx ctx) (h' : LiveCtx ctx') (msg kp : Bytes)
    (nf : NonceHardened) (ndata : Option Bytes) :
    schnorrsigSignCore ctx.gen msg kp nf ndata = schnorrsigSignCore ctx'.gen msg kp nf ndata := by
  unfold schnorrsigSignCore
  simp only
  rw [(C38_generator_multiplication_same h h' _ (cmov_one_ne _ _ _)).1]

/-- Schnorr signing gives the same outcome in every two live contexts, for all arguments. -/
theorem C38_schnorr_sign_same {ctx ctx' : Ctx} (h : LiveCtx ctx) (h' : LiveCtx ctx')
    (sig msg : Option Bytes) (msglen : ℕ) (kp aux : Option Bytes) (ex : Option SchnorrExtra) :
    schnorrsigSign32 ctx sig msg kp aux = schnorrsigSign32 ctx' sig msg kp aux ∧
    schnorrsigSign ctx sig msg kp aux = schnorrsigSign ctx' sig msg kp aux ∧
    schnorrsigSignCustom ctx sig msg msglen kp ex = schnorrsigSignCustom ctx' sig msg msglen kp ex := by
  have key : ∀ msglen nf ndata, schnorrsigSignInternal ctx sig msg msglen kp nf ndata =
      schnorrsigSignInternal ctx' sig msg msglen kp nf ndata := by
    intro msglen nf ndata
    unfold schnorrsigSignInternal
    simp only [ecmultGenIsBuilt, h.ok.built, h'.ok.built, signCore_same h h']
  refine ⟨key _ _ _, key _ _ _, ?_⟩
  unfold schnorrsigSignCustom
  simp only [key]

/-- So does the creation of a keypair. -/
theorem C38_keypair_create_same {ctx ctx' : Ctx} (h : LiveCtx ctx) (h' : LiveCtx ctx')
    (kp : Option Bytes) {seckey : Bytes} (hl : seckey.length = 32) :
    keypairCreate ctx kp (some seckey) = keypairCreate ctx' kp (some seckey) ∧
    keypairCreate ctx kp none = keypairCreate ctx' kp none := by
  cases kp with
  | none => exact ⟨rfl, rfl⟩
  | some old =>
    refine ⟨?_, ?_⟩
    · by_cases hv : 1 ≤ beNat seckey ∧ beNat seckey < n
      · rw [C28_create h old hl hv.1 hv.2, C28_create h' old hl hv.1 hv.2]
      · rw [C28_create_invalid h old hl (by omega), C28_create_invalid h' old hl (by omega)]
    · simp only [keypairCreate, ecmultGenIsBuilt, h.ok.built, h'.ok.built]

/-- Contexts of two builds with different combs sign alike. -/
example : ∃ ctx ctx' : Ctx, LiveCtx ctx ∧ LiveCtx ctx' ∧ ctx.gen.cfg ≠ ctx'.gen.cfg ∧
    ∀ sig msg kp aux, schnorrsigSign32 ctx sig msg kp aux = schnorrsigSign32 ctx' sig msg kp aux := by
  have h := LiveCtx.create (junk := contextStatic comb22) (flags := 1) (Or.inr (Or.inl rfl)) rfl
  have h' := LiveCtx.create (junk := contextStatic comb86) (flags := 1) (Or.inr (Or.inr (Or.inl rfl))) rfl
  refine ⟨_, _, h, h', ?_, fun sig msg kp aux => (C38_schnorr_sign_same h h' sig msg 0 kp aux none).1⟩
  intro e
  have := congrArg CombCfg.blocks e
  exact absurd this (by decide)

end Secp
