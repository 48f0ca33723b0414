import Verif.Proof.LimbEcdsa

/-!
# X-only keys, key pairs and Schnorr signatures compute the same on limbs as on values
-/

namespace Secp.Model
open Secp FeOps LimbRep
open Secp.Spec (beNat beBytes leNat leBytes)

variable {α : Type} [FeOps α] [FeMem α] [LimbRep α] [MemRep α]

namespace Limb

variable {c d : Ge α} {C D : Ge Fp} {a : Gej α} {A : Gej Fp}

variable {g : GenCtxOf α} {K : GenCtx} {x : Limb.Ctx α} {X : Model.Ctx}

/-! ### X-only keys and key pairs -/

theorem xonlyPubkeyParse_eq (pubkey : Option (List UInt8)) {input : Option (List UInt8)}
    (hi : ∀ b ∈ input, 32 ≤ b.length) :
    Limb.xonlyPubkeyParse α pubkey input = Model.xonlyPubkeyParse pubkey input := by
  unfold Limb.xonlyPubkeyParse Model.xonlyPubkeyParse
  cases pubkey with
  | none => rfl
  | some _ =>
    cases input with
    | none => rfl
    | some b =>
      obtain ⟨e, r⟩ := MemRep.setB32Limit (α := α) (hi b rfl)
      obtain ⟨e', l⟩ := geSetXoVar_limb (r.mono (by omega : 1 ≤ 2)) false
      dsimp only
      unfold Limb.feSetB32Limit
      rw [e, e', pubkeySave_limb l]
      rfl

theorem xonlyPubkeySerialize_eq (output : Option (List UInt8)) {pubkey : Option (List UInt8)}
    (hk : ∀ b ∈ pubkey, Canon b) :
    Limb.xonlyPubkeySerialize α output pubkey = Model.xonlyPubkeySerialize output pubkey := by
  unfold Limb.xonlyPubkeySerialize Model.xonlyPubkeySerialize
  cases output with
  | none => rfl
  | some out =>
    cases pubkey with
    | none => rfl
    | some b =>
      obtain ⟨e, -⟩ := pubkeyLoad_limb α b
      have n := pubkeyLoad_norm α (hk b rfl)
      dsimp only
      rw [e, show Limb.feGetB32 (Limb.pubkeyLoad α b).1.x = _ from MemRep.getB32 n.x]

theorem xonlyPubkeyCmp_eq {pk0 pk1 : Option (List UInt8)} (h0 : ∀ b ∈ pk0, Canon b) (h1 : ∀ b ∈ pk1, Canon b) :
    Limb.xonlyPubkeyCmp α pk0 pk1 = Model.xonlyPubkeyCmp pk0 pk1 := by
  unfold Limb.xonlyPubkeyCmp Model.xonlyPubkeyCmp Limb.xonlyCmpKey Model.xonlyCmpKey
  dsimp only
  rw [xonlyPubkeySerialize_eq _ h0, xonlyPubkeySerialize_eq _ h1]

theorem geEvenY_limb (h : GeNorm c C) : (Limb.geEvenY c).2 = (Model.geEvenY C).2 ∧
    GeLimb (Limb.geEvenY c).1 (Model.geEvenY C).1 := by
  have l := h.limb
  unfold Limb.geEvenY Model.geEvenY
  rw [show Limb.feIsOdd c.y = _ from MemRep.isOdd h.y]
  split_ifs
  · exact ⟨rfl, l.x, ((MemRep.rep h.y).negate' 1).mono (by omega), l.inf⟩
  · exact ⟨rfl, l⟩

theorem xonlyPubkeyFromPubkey_eq (xo : Option (List UInt8)) (par : Option ℤ) {pubkey : Option (List UInt8)}
    (hk : ∀ b ∈ pubkey, Canon b) :
    Limb.xonlyPubkeyFromPubkey α xo par pubkey = Model.xonlyPubkeyFromPubkey xo par pubkey := by
  unfold Limb.xonlyPubkeyFromPubkey Model.xonlyPubkeyFromPubkey
  cases xo with
  | none => rfl
  | some old =>
    cases pubkey with
    | none => rfl
    | some b =>
      obtain ⟨e, -⟩ := pubkeyLoad_limb α b
      obtain ⟨e', l⟩ := geEvenY_limb (pubkeyLoad_norm α (hk b rfl))
      dsimp only
      rw [e, e', pubkeySave_limb l]

theorem xonlyPubkeyTweakAdd_eq (out key tweak : Option (List UInt8)) :
    Limb.xonlyPubkeyTweakAdd α out key tweak = Model.xonlyPubkeyTweakAdd out key tweak := by
  unfold Limb.xonlyPubkeyTweakAdd Model.xonlyPubkeyTweakAdd
  cases out with
  | none => rfl
  | some _ =>
    cases key with
    | none => rfl
    | some key =>
      cases tweak with
      | none => rfl
      | some tweak =>
        obtain ⟨e, l⟩ := pubkeyLoad_limb α key
        obtain ⟨e', l'⟩ := ecPubkeyTweakAddHelper_limb l tweak
        dsimp only
        rw [e, e', pubkeySave_limb l']

theorem xonlyPubkeyTweakAddCheck_eq (tw : Option (List UInt8)) (par : ℤ) (key tweak : Option (List UInt8)) :
    Limb.xonlyPubkeyTweakAddCheck α tw par key tweak = Model.xonlyPubkeyTweakAddCheck tw par key tweak := by
  unfold Limb.xonlyPubkeyTweakAddCheck Model.xonlyPubkeyTweakAddCheck
  cases key with
  | none => rfl
  | some key =>
    cases tw with
    | none => rfl
    | some tw =>
      cases tweak with
      | none => rfl
      | some tweak =>
        obtain ⟨e, l⟩ := pubkeyLoad_limb α key
        obtain ⟨e', l'⟩ := ecPubkeyTweakAddHelper_limb l tweak
        dsimp only
        rw [e, e', norm_b32 l'.x, norm_odd l'.y]

theorem keypairSave_limb (h : GeLimb c C) (k : Fn) : Limb.keypairSave k c = Model.keypairSave k C := by
  unfold Limb.keypairSave Model.keypairSave
  rw [pubkeySave_limb h]

theorem constG_norm : GeNorm (geConstG : Ge α) geConstG :=
  ⟨MemRep.feConst (by unfold p; decide), MemRep.feConst (by unfold p; decide), rfl⟩

variable (α) in
theorem keypairLoad_limb {b : List UInt8} (h : Canon (b.drop 32)) :
    (Limb.keypairLoad α b).1 = (Model.keypairLoad b).1 ∧
    GeNorm (Limb.keypairLoad α b).2.1 (Model.keypairLoad b).2.1 ∧
    (Limb.keypairLoad α b).2.2 = (Model.keypairLoad b).2.2 := by
  obtain ⟨e, -⟩ := pubkeyLoad_limb α (b.drop 32)
  have n := pubkeyLoad_norm α h
  unfold Limb.keypairLoad Model.keypairLoad
  dsimp only
  rw [e]
  split_ifs
  · exact ⟨rfl, constG_norm, rfl⟩
  · exact ⟨rfl, n, rfl⟩

variable (α) in
theorem keypairLoadPub_limb {b : List UInt8} (h : Canon (b.drop 32)) :
    GeNorm (Limb.keypairLoadPub α b).1 (Model.keypairLoadPub b).1 ∧
    (Limb.keypairLoadPub α b).2 = (Model.keypairLoadPub b).2 := by
  obtain ⟨e, -⟩ := pubkeyLoad_limb α (b.drop 32)
  have n := pubkeyLoad_norm α h
  unfold Limb.keypairLoadPub Model.keypairLoadPub
  dsimp only
  rw [e]
  split_ifs
  · exact ⟨constG_norm, rfl⟩
  · exact ⟨n, rfl⟩

theorem keypairCreate_eq (h : CtxLimb x X) (keypair seckey : Option (List UInt8)) :
    Limb.keypairCreate x keypair seckey = Model.keypairCreate X keypair seckey := by
  unfold Limb.keypairCreate Model.keypairCreate
  cases keypair with
  | none => rfl
  | some _ =>
    cases seckey with
    | none => dsimp only; rw [h.built]
    | some seckey =>
      obtain ⟨e1, l, e2⟩ := createHelper_limb h seckey
      dsimp only
      rw [h.built, e2, e1, keypairSave_limb l]

theorem keypairXonlyPub_eq (pk : Option (List UInt8)) (par : Option ℤ) {keypair : Option (List UInt8)}
    (hk : ∀ b ∈ keypair, Canon (b.drop 32)) :
    Limb.keypairXonlyPub α pk par keypair = Model.keypairXonlyPub pk par keypair := by
  unfold Limb.keypairXonlyPub Model.keypairXonlyPub
  cases pk with
  | none => rfl
  | some _ =>
    cases keypair with
    | none => rfl
    | some b =>
      obtain ⟨n, e⟩ := keypairLoadPub_limb α (hk b rfl)
      obtain ⟨e', l⟩ := geEvenY_limb n
      dsimp only
      rw [e, e', pubkeySave_limb l]

theorem keypairXonlyTweakAdd_eq {keypair : Option (List UInt8)} (tweak : Option (List UInt8))
    (hk : ∀ b ∈ keypair, Canon (b.drop 32)) :
    Limb.keypairXonlyTweakAdd α keypair tweak = Model.keypairXonlyTweakAdd keypair tweak := by
  unfold Limb.keypairXonlyTweakAdd Model.keypairXonlyTweakAdd
  cases keypair with
  | none => rfl
  | some b =>
    cases tweak with
    | none => rfl
    | some t =>
      obtain ⟨e1, n, e2⟩ := keypairLoad_limb α (hk b rfl)
      obtain ⟨e', l⟩ := geEvenY_limb n
      obtain ⟨e'', l'⟩ := ecPubkeyTweakAddHelper_limb l t
      dsimp only
      rw [e1, e2, e', e'', keypairSave_limb l']

/-! ### Schnorr signatures -/

theorem schnorrsigSignCore_eq (h : CtxLimb x X) (msg : List UInt8) {keypair : List UInt8}
    (hk : Canon (keypair.drop 32)) (f : NonceHardened) (nd : Option (List UInt8)) :
    Limb.schnorrsigSignCore x.gen msg keypair f nd = Model.schnorrsigSignCore X.gen msg keypair f nd := by
  obtain ⟨e1, n, e2⟩ := keypairLoad_limb α hk
  have eo : Limb.feIsOdd (Limb.keypairLoad α keypair).2.1.y = _ := MemRep.isOdd n.y
  have eb : Limb.feGetB32 (Limb.keypairLoad α keypair).2.1.x = _ := MemRep.getB32 n.x
  unfold Limb.schnorrsigSignCore Model.schnorrsigSignCore
  dsimp only
  rw [e1, e2, eo, eb]
  generalize scCmov _ _ _ = k
  have l := (h.mulGen k).ge MemRep.inv
  rw [norm_b32 l.x, norm_odd l.y]

theorem schnorrsigSignInternal_eq (h : CtxLimb x X) (sig msg : Option (List UInt8)) (len : ℕ)
    {keypair : Option (List UInt8)} (hk : ∀ b ∈ keypair, Canon (b.drop 32)) (f : Option NonceHardened)
    (nd : Option (List UInt8)) :
    Limb.schnorrsigSignInternal x sig msg len keypair f nd =
      Model.schnorrsigSignInternal X sig msg len keypair f nd := by
  unfold Limb.schnorrsigSignInternal Model.schnorrsigSignInternal
  rw [h.built]
  cases sig with
  | none => rfl
  | some sig =>
    cases keypair with
    | none => rfl
    | some b =>
      dsimp only
      rw [schnorrsigSignCore_eq h _ (hk b rfl), (keypairLoad_limb α (hk b rfl)).2.2]

theorem schnorrsigSign32_eq (h : CtxLimb x X) (sig msg : Option (List UInt8))
    {keypair : Option (List UInt8)} (hk : ∀ b ∈ keypair, Canon (b.drop 32)) (aux : Option (List UInt8)) :
    Limb.schnorrsigSign32 x sig msg keypair aux = Model.schnorrsigSign32 X sig msg keypair aux :=
  schnorrsigSignInternal_eq h sig msg 32 hk _ aux

theorem schnorrsigSignCustom_eq (h : CtxLimb x X) (sig msg : Option (List UInt8)) (len : ℕ)
    {keypair : Option (List UInt8)} (hk : ∀ b ∈ keypair, Canon (b.drop 32)) (ex : Option SchnorrExtra) :
    Limb.schnorrsigSignCustom x sig msg len keypair ex = Model.schnorrsigSignCustom X sig msg len keypair ex := by
  unfold Limb.schnorrsigSignCustom Model.schnorrsigSignCustom
  cases ex with
  | none => exact schnorrsigSignInternal_eq h sig msg len hk _ _
  | some ex =>
    dsimp only
    rw [schnorrsigSignInternal_eq h sig msg len hk]

theorem schnorrsigVerifyPoint_eq {r : α} {R : Fp} (hr : Rep r 1 R) (s e : Fn) (h : GeLimb c C) :
    Limb.schnorrsigVerifyPoint r s e c = Model.schnorrsigVerifyPoint R s e C := by
  have l := (ecmult_l h.gej (-e) (some s)).geVar MemRep.inv
  unfold Limb.schnorrsigVerifyPoint Model.schnorrsigVerifyPoint
  dsimp only
  rw [l.inf, norm_odd l.y, hr.equal l.x]

theorem schnorrsigVerify_eq {sig : Option (List UInt8)} (hs : ∀ b ∈ sig, 32 ≤ b.length)
    (msg : Option (List UInt8)) (len : ℕ) {pk : Option (List UInt8)} (hk : ∀ b ∈ pk, Canon b) :
    Limb.schnorrsigVerify α sig msg len pk = Model.schnorrsigVerify sig msg len pk := by
  unfold Limb.schnorrsigVerify Model.schnorrsigVerify
  cases sig with
  | none => rfl
  | some sig =>
    cases pk with
    | none => rfl
    | some pk =>
      obtain ⟨e, r⟩ := MemRep.setB32Limit (α := α) (hs sig rfl)
      obtain ⟨e', l⟩ := pubkeyLoad_limb α pk
      have n := pubkeyLoad_norm α (hk pk rfl)
      have eb : Limb.feGetB32 (Limb.pubkeyLoad α pk).1.x = _ := MemRep.getB32 n.x
      dsimp only
      unfold Limb.feSetB32Limit
      rw [e, e', eb, schnorrsigVerifyPoint_eq r _ _ l]

end Limb

end Secp.Model
