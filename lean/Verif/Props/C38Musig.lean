import Verif.Proof.MusigNonce

/-! # C38 (continued): MuSig nonces do not depend on the randomization -/

namespace Secp
open Model Spec

seal keyObject beBytes compressed

theorem geSetGejZinv_zero (a : Gej Fp) : (geSetGejZinv a 0).x = 0 ∧ (geSetGejZinv a 0).y = 0 := by
  simp [geSetGejZinv, FeOps.mul, FeOps.sqr]

theorem geSetAllGej_two (a b : Gej Fp) : geSetAllGej [a, b] =
    [geSetGejZinv a ((a.z * b.z)⁻¹ * b.z), geSetGejZinv b (a.z * (a.z * b.z)⁻¹)] := rfl

/-- An infinite result of the generator multiplication has z = 0. -/
theorem ecmultGen_z {gen : GenCtx} (hg : GenCtxOk gen) {k : Fn} (hk : k = 0) : (ecmultGen gen k).z = 0 := by
  have h := (ecmultGen_rep hg k).inf_iff.2 (by rw [hk, fn_zero_smul])
  have : (ecmultGen gen k).infinity = FeOps.normalizesToZero (ecmultGen gen k).z := rfl
  rw [this] at h
  simpa [FeOps.normalizesToZero] using h

theorem pubnonce_same {gen gen' : GenCtx} (hg : GenCtxOk gen) (hg' : GenCtxOk gen') (k₁ k₂ : Fn) :
    pubnonceSave ((geSetAllGej [ecmultGen gen k₁, ecmultGen gen k₂]).getD 0 geGarbage)
        ((geSetAllGej [ecmultGen gen k₁, ecmultGen gen k₂]).getD 1 geGarbage) =
      pubnonceSave ((geSetAllGej [ecmultGen gen' k₁, ecmultGen gen' k₂]).getD 0 geGarbage)
        ((geSetAllGej [ecmultGen gen' k₁, ecmultGen gen' k₂]).getD 1 geGarbage) := by
  by_cases h : k₁ = 0 ∨ k₂ = 0
  · have key : ∀ gen, GenCtxOk gen →
        pubnonceSave ((geSetAllGej [ecmultGen gen k₁, ecmultGen gen k₂]).getD 0 geGarbage)
          ((geSetAllGej [ecmultGen gen k₁, ecmultGen gen k₂]).getD 1 geGarbage) =
        pubnonceMagic ++ geToBytes ⟨0, 0, false⟩ ++ geToBytes ⟨0, 0, false⟩ := by
      intro gen hg
      have hz : (ecmultGen gen k₁).z * (ecmultGen gen k₂).z = 0 := by
        rcases h with h | h
        · rw [ecmultGen_z hg h, zero_mul]
        · rw [ecmultGen_z hg h, mul_zero]
      have hb : ∀ a : Gej Fp, geToBytes (geSetGejZinv a 0) = geToBytes ⟨0, 0, false⟩ := by
        intro a
        unfold geToBytes
        simp only [geSetGejZinv_zero]
      rw [geSetAllGej_two, hz, inv_zero, zero_mul, mul_zero]
      simp only [List.getD_cons_zero, List.getD_cons_succ]
      rw [pubnonceSave, hb, hb]
    rw [key gen hg, key gen' hg']
  · rw [not_or] at h
    have key : ∀ gen, GenCtxOk gen →
        pubnonceSave ((geSetAllGej [ecmultGen gen k₁, ecmultGen gen k₂]).getD 0 geGarbage)
          ((geSetAllGej [ecmultGen gen k₁, ecmultGen gen k₂]).getD 1 geGarbage) =
        pubnonceObject (k₁ • G) (k₂ • G) := by
      intro gen hg
      have hall := geSetAllGej_rep (.cons (ecmultGen_rep hg k₁) (.cons (ecmultGen_rep hg k₂) .nil))
        (by simpa using ⟨⟨h.1, G_ne_zero⟩, h.2, G_ne_zero⟩)
      generalize geSetAllGej [ecmultGen gen k₁, ecmultGen gen k₂] = l at hall ⊢
      obtain ⟨x, l1, hx, hl1, rfl⟩ := List.forall₂_cons_right_iff.1 hall
      obtain ⟨y, l2, hy, -, rfl⟩ := List.forall₂_cons_right_iff.1 hl1
      simp only [List.getD_cons_zero, List.getD_cons_succ]
      exact pubnonceSave_obj (smul_G_ne h.1) (smul_G_ne h.2) hx hy
    rw [key gen hg, key gen' hg']

theorem nonceGenCore_same {gen gen' : GenCtx} (hg : GenCtxOk gen) (hg' : GenCtxOk gen') (rand : Bytes)
    (sk msg : Option Bytes) (pk : Ge Fp) (agg ex : Option Bytes) (ret : Bool) :
    musigNonceGenCore gen rand sk msg pk agg ex ret = musigNonceGenCore gen' rand sk msg pk agg ex ret := by
  unfold musigNonceGenCore
  simp only
  rw [pubnonce_same hg hg']

/-- MuSig nonce generation gives the same outcome in every two live contexts, for all arguments. -/
theorem C38_musig_nonce_gen_same {ctx ctx' : Ctx} (h : LiveCtx ctx) (h' : LiveCtx ctx')
    (secnonce pubnonce rand seckey pubkey keypair msg cache extra : Option Bytes) (cnt : UInt64) :
    musigNonceGen ctx secnonce pubnonce rand seckey pubkey msg cache extra =
      musigNonceGen ctx' secnonce pubnonce rand seckey pubkey msg cache extra ∧
    musigNonceGenCounter ctx secnonce pubnonce cnt keypair msg cache extra =
      musigNonceGenCounter ctx' secnonce pubnonce cnt keypair msg cache extra := by
  have key : ∀ sn rand sk pk, musigNonceGenInternal ctx sn pubnonce rand sk pk msg cache extra =
      musigNonceGenInternal ctx' sn pubnonce rand sk pk msg cache extra := by
    intro sn rand sk pk
    unfold musigNonceGenInternal
    simp only [ecmultGenIsBuilt, h.ok.built, h'.ok.built, nonceGenCore_same h.ok h'.ok]
  unfold musigNonceGen musigNonceGenCounter
  simp only [key, and_self]

/-- A context that was randomized is live. -/
example : ∃ ctx seed, LiveCtx ctx ∧ LiveCtx (contextRandomize ctx seed).val := by
  obtain ⟨ctx, hc⟩ : ∃ ctx, LiveCtx ctx :=
    ⟨_, LiveCtx.create (junk := contextStatic comb22) (flags := 1) (Or.inr (Or.inl rfl)) rfl⟩
  exact ⟨ctx, some (List.replicate 32 7), hc, LiveCtx.randomize hc _⟩

end Secp
