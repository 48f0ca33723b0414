import Verif.Proof.LimbApi

/-!
# Contexts, ECDSA and ECDH compute the same on limbs as on values
-/

namespace Secp.Model
open Secp FeOps LimbRep
open Secp.Spec (beNat beBytes leNat leBytes)

variable {α : Type} [FeOps α] [FeMem α] [LimbRep α] [MemRep α]

namespace Limb

variable {c d : Ge α} {C D : Ge Fp} {a : Gej α} {A : Gej Fp}

/-! ### Contexts -/

/-- The limbs of a context stand for `C`. -/
structure CtxLimb (c : Limb.Ctx α) (C : Model.Ctx) : Prop where
  gen : GenCtxLimb c.gen C.gen
  stored : CombStored C.gen.cfg
  illegal : c.illegalCallback = C.illegalCallback
  error : c.errorCallback = C.errorCallback
  declassify : c.declassify = C.declassify

variable {g : GenCtxOf α} {K : GenCtx} {x : Limb.Ctx α} {X : Model.Ctx}

theorem rngLoop_length (k : List UInt8) (fuel : ℕ) : ∀ (v : List UInt8) (len : ℕ), len ≤ fuel →
    (Hash.rngLoop k fuel v len).1.length = len := by
  induction fuel with
  | zero =>
    intro v len h
    obtain rfl : len = 0 := by omega
    rw [Hash.rngLoop]
    rfl
  | succ fuel ih =>
    intro v len h
    rw [Hash.rngLoop]
    by_cases c1 : len > 0
    · rw [if_pos c1]
      dsimp only
      by_cases c2 : len > 32
      · rw [if_pos c2, List.length_append, ih _ _ (by omega), List.length_take, Hash.hmacSeq_eq, Hash.hmac_length]
        omega
      · rw [if_neg c2, List.length_append, ih _ _ (by omega), List.length_take, Hash.hmacSeq_eq, Hash.hmac_length]
        omega
    · rw [if_neg c1]
      simp only [List.length_nil]
      omega

theorem rngGenerate_length (r : Hash.Rng) (len : ℕ) : (Hash.rngGenerate r len).1.length = len :=
  rngLoop_length _ _ _ _ le_rfl

theorem ecmultGenBlind_limb (h : GenCtxLimb g K) (hc : CombStored K.cfg) (seed : Option (List UInt8)) :
    GenCtxLimb (Limb.ecmultGenBlind g seed) (Model.ecmultGenBlind K seed) := by
  cases seed with
  | none => exact genBlindReset_limb h.cfg h.built
  | some s =>
    unfold Limb.ecmultGenBlind Model.ecmultGenBlind
    dsimp only
    rw [h.scalarOffset]
    exact genBlindApply_limb MemRep.inv h hc (genBlindFe_limb (MemRep.setB32Mod (by
      rw [rngGenerate_length]))) _

theorem genBlindApply_cfg (G : GenCtx) (f : Fp) (b : Fn) : (genBlindApply G f b).cfg = G.cfg := by
  obtain ⟨g, h⟩ : ∃ g, g = genBlindApply G f b := ⟨_, rfl⟩
  rw [← h]
  rw [genBlindApply.eq_1] at h
  generalize genScalarDiff G.cfg = d at h
  generalize ecmultGen { G with projBlind := f } b = e at h
  generalize -b + d = o at h
  generalize geSetGej e = q at h
  rw [h]

theorem genBlind_cfg (G : GenCtx) (seed : Option (List UInt8)) : (Model.ecmultGenBlind G seed).cfg = G.cfg := by
  obtain ⟨g, h⟩ : ∃ g, g = Model.ecmultGenBlind G seed := ⟨_, rfl⟩
  rw [← h]
  cases seed with
  | none =>
    rw [Model.ecmultGenBlind.eq_1] at h
    rw [genBlindReset.eq_1] at h
    generalize 1 + genScalarDiff G.cfg = d at h
    rw [h]
  | some s =>
    rw [Model.ecmultGenBlind.eq_2] at h
    rw [h, genBlindApply_cfg]

theorem CtxLimb.setGen (h : CtxLimb x X) {g : GenCtxOf α} {K : GenCtx} (hg : GenCtxLimb g K)
    (hK : K.cfg = X.gen.cfg) : CtxLimb { x with gen := g } { X with gen := K } :=
  ⟨hg, by rw [hK]; exact h.stored, h.illegal, h.error, h.declassify⟩

theorem CtxLimb.randomize (h : CtxLimb x X) (seed : Option (List UInt8)) :
    (Limb.contextRandomize x seed).ret = (Model.contextRandomize X seed).ret ∧
    (Limb.contextRandomize x seed).illegal = (Model.contextRandomize X seed).illegal ∧
    CtxLimb (Limb.contextRandomize x seed).val (Model.contextRandomize X seed).val := by
  have hb : Limb.ecmultGenIsBuilt x.gen = Model.ecmultGenIsBuilt X.gen := h.gen.built
  have hs := h.setGen (ecmultGenBlind_limb h.gen h.stored seed) (genBlind_cfg X.gen seed)
  unfold Limb.contextRandomize Model.contextRandomize
  rw [hb]
  revert hs
  generalize Limb.ecmultGenBlind x.gen seed = u
  generalize Model.ecmultGenBlind X.gen seed = v
  generalize Model.ecmultGenIsBuilt X.gen = b
  intro hs
  cases b
  · exact ⟨rfl, rfl, h⟩
  · exact ⟨rfl, rfl, hs⟩

/-- The value of a junk context: only the table matters. -/
def junkVal (x : Limb.Ctx α) : Model.Ctx :=
  ⟨⟨x.gen.cfg, x.gen.built, 0, geInfinity, 0⟩, x.illegalCallback, x.errorCallback, x.declassify⟩

theorem contextBuild_limb {g : GenCtxOf α} {G : GenCtx} (hc : g.cfg = G.cfg) (hb : g.built = G.built) :
    GenCtxLimb (Limb.ecmultGenContextBuild g) (Model.ecmultGenContextBuild G) ∧
      (Model.ecmultGenContextBuild G).cfg = G.cfg := by
  have r : GenCtxLimb (Limb.ecmultGenBlind g none) (Model.ecmultGenBlind G none) := genBlindReset_limb hc hb
  have e := genBlind_cfg G none
  unfold Limb.ecmultGenContextBuild Model.ecmultGenContextBuild
  revert r e
  generalize Limb.ecmultGenBlind g none = u
  generalize Model.ecmultGenBlind G none = v
  intro r e
  exact ⟨⟨r.cfg, rfl, r.scalarOffset, r.geOffset, r.projBlind⟩, e⟩

theorem preallocatedCreate_limb {junk ctx : Limb.Ctx α} {flags : UInt32}
    (hc : junk.gen.cfg.Build)
    (h : (Limb.contextPreallocatedCreate junk flags).val = some ctx) :
    ∃ C, (Model.contextPreallocatedCreate (junkVal junk) flags).val = some C ∧ CtxLimb ctx C := by
  have hs := (comb_valid_stored hc).2
  have ej : junk.gen.cfg = (junkVal junk).gen.cfg := rfl
  obtain ⟨r, e⟩ := contextBuild_limb (g := junk.gen) (G := (junkVal junk).gen) ej rfl
  rw [ej] at hs
  unfold Limb.contextPreallocatedCreate at h
  unfold Model.contextPreallocatedCreate
  revert r e h
  generalize Limb.ecmultGenContextBuild junk.gen = u
  generalize Model.ecmultGenContextBuild (junkVal junk).gen = v
  generalize contextPreallocatedSize flags = sz
  intro h r e
  dsimp only at h ⊢
  by_cases c1 : sz.val = 0
  · rw [if_pos c1] at h
    exact absurd h (by simp)
  · rw [if_neg c1] at h ⊢
    obtain rfl := Option.some_inj.1 h
    exact ⟨_, rfl, r, by rw [e]; exact hs, rfl, rfl, rfl⟩

/-- Every context a program can hold stands for one of the value level. -/
theorem live_limb (h : Limb.LiveCtx x) : ∃ X, Model.LiveCtx X ∧ CtxLimb x X := by
  induction h with
  | create hc h =>
    obtain ⟨C, e, l⟩ := preallocatedCreate_limb hc h
    exact ⟨C, .create (junk := junkVal _) hc e, l⟩
  | preallocatedCreate hc h =>
    obtain ⟨C, e, l⟩ := preallocatedCreate_limb hc h
    exact ⟨C, .preallocatedCreate (junk := junkVal _) hc e, l⟩
  | @clone c c' _ e ih =>
    obtain ⟨X, hX, l⟩ := ih
    have hb : Limb.contextIsProper c = Model.contextIsProper X := l.gen.built
    unfold Limb.contextClone at e
    rw [hb] at e
    cases hp : Model.contextIsProper X
    · rw [hp] at e
      exact absurd e (by simp [Out.argFail])
    · rw [hp] at e
      have e2 : (Limb.contextPreallocatedClone c true).val = some c' := e
      unfold Limb.contextPreallocatedClone at e2
      rw [hb, hp] at e2
      obtain rfl : c = c' := Option.some_inj.1 e2
      exact ⟨X, hX, l⟩
  | @preallocatedClone c c' _ e ih =>
    obtain ⟨X, hX, l⟩ := ih
    have hb : Limb.contextIsProper c = Model.contextIsProper X := l.gen.built
    unfold Limb.contextPreallocatedClone at e
    rw [hb] at e
    cases hp : Model.contextIsProper X
    · rw [hp] at e
      exact absurd e (by simp [Out.argFail])
    · rw [hp] at e
      obtain rfl : c = c' := Option.some_inj.1 e
      exact ⟨X, hX, l⟩
  | randomize _ seed ih =>
    obtain ⟨X, hX, l⟩ := ih
    exact ⟨_, hX.randomize seed, (l.randomize seed).2.2⟩
  | setIllegal _ fn data ih =>
    obtain ⟨X, hX, l⟩ := ih
    exact ⟨_, hX.setIllegal fn data, l.gen, l.stored, rfl, l.error, l.declassify⟩
  | setError _ fn data ih =>
    obtain ⟨X, hX, l⟩ := ih
    exact ⟨_, hX.setError fn data, l.gen, l.stored, l.illegal, rfl, l.declassify⟩

theorem CtxLimb.mulGen (h : CtxLimb x X) (k : Fn) : GejLimb (ecmultGen x.gen k) (ecmultGen X.gen k) :=
  ecmultGen_limb h.gen h.stored k

theorem CtxLimb.built (h : CtxLimb x X) : Limb.ecmultGenIsBuilt x.gen = Model.ecmultGenIsBuilt X.gen :=
  h.gen.built

theorem createHelper_limb (h : CtxLimb x X) (seckey : List UInt8) :
    (Limb.ecPubkeyCreateHelper x.gen seckey).1 = (Model.ecPubkeyCreateHelper X.gen seckey).1 ∧
    GeLimb (Limb.ecPubkeyCreateHelper x.gen seckey).2.1 (Model.ecPubkeyCreateHelper X.gen seckey).2.1 ∧
    (Limb.ecPubkeyCreateHelper x.gen seckey).2.2 = (Model.ecPubkeyCreateHelper X.gen seckey).2.2 :=
  ⟨rfl, (h.mulGen _).ge MemRep.inv, rfl⟩

theorem ecPubkeyCreate_eq (h : CtxLimb x X) (pubkey seckey : Option (List UInt8)) :
    Limb.ecPubkeyCreate x pubkey seckey = Model.ecPubkeyCreate X pubkey seckey := by
  unfold Limb.ecPubkeyCreate Model.ecPubkeyCreate
  cases pubkey with
  | none => rfl
  | some _ =>
    cases seckey with
    | none => dsimp only; rw [h.built]
    | some seckey =>
      obtain ⟨e1, l, e2⟩ := createHelper_limb h seckey
      dsimp only
      rw [h.built, e2, pubkeySave_limb l]

/-! ### ECDSA -/

theorem sigr_lt (r : Fn) : (Model.feSetB32Limit (scGetB32 r)).2 = true := by
  have hr : r.val < n := ZMod.val_lt r
  have hl : (scGetB32 r).length = 32 := Hash.beBytes_length _ _
  have hn : n < p := by unfold n p; decide
  unfold Model.feSetB32Limit
  dsimp only
  rw [List.take_of_length_le (by omega), scGetB32, beNat_beBytes, Nat.mod_eq_of_lt]
  · exact decide_eq_true (by omega)
  · exact lt_trans (lt_trans hr hn) p_lt_256

theorem pmo_norm : MemRep.Norm (Limb.ecdsaPMinusOrder : α) Model.ecdsaPMinusOrder :=
  MemRep.feConst (by unfold p; decide)

theorem ord_norm : MemRep.Norm (Limb.ecdsaOrderAsFe : α) Model.ecdsaOrderAsFe :=
  MemRep.feConst (by unfold p; decide)

variable (α) in
theorem sigr_norm (r : Fn) :
    MemRep.Norm (Limb.feSetB32Limit (scGetB32 r) : α × Bool).1 (Model.feSetB32Limit (scGetB32 r)).1 :=
  MemRep.setB32LimitNorm (by rw [scGetB32, Hash.beBytes_length]) (sigr_lt r)

theorem ecdsaSigVerify_eq (h : GeLimb c C) (r s m : Fn) :
    Limb.ecdsaSigVerify r s c m = Model.ecdsaSigVerify r s C m := by
  have mm := ecmult_l h.gej (s⁻¹ * r) (some (s⁻¹ * m))
  have n := sigr_norm α r
  have e1 := GejLimb.eqXVar (MemRep.rep n) (by omega) mm
  have e2 := GejLimb.eqXVar ((MemRep.rep n).add' (MemRep.rep ord_norm)) (by omega) mm
  have e3 : Limb.feCmpVar (Limb.feSetB32Limit (scGetB32 r)).1 (Limb.ecdsaPMinusOrder : α) =
      Model.feCmpVar (Model.feSetB32Limit (scGetB32 r)).1 Model.ecdsaPMinusOrder := MemRep.cmpVar n pmo_norm
  unfold Limb.ecdsaSigVerify Model.ecdsaSigVerify
  dsimp only
  rw [mm.inf, e1, e2, e3]

theorem ecdsaVerify_eq (sig msg pk : Option (List UInt8)) :
    Limb.ecdsaVerify α sig msg pk = Model.ecdsaVerify sig msg pk := by
  unfold Limb.ecdsaVerify Model.ecdsaVerify
  cases msg with
  | none => rfl
  | some msg =>
    cases sig with
    | none => rfl
    | some sig =>
      cases pk with
      | none => rfl
      | some pk =>
        obtain ⟨e, l⟩ := pubkeyLoad_limb α pk
        dsimp only
        rw [e, ecdsaSigVerify_eq l]

theorem ecdsaSigSign_eq (h : CtxLimb x X) (seckey message nonce : Fn) :
    Limb.ecdsaSigSign x.gen seckey message nonce = Model.ecdsaSigSign X.gen seckey message nonce := by
  have l := (h.mulGen nonce).ge MemRep.inv
  unfold Limb.ecdsaSigSign Model.ecdsaSigSign
  dsimp only
  rw [norm_b32 l.x, norm_odd l.y]

theorem signLoop_eq (h : CtxLimb x X) (f : NonceFn) (msg32 seckey : List UInt8)
    (noncedata : Option (List UInt8)) (sec msg : Fn) (fuel i : ℕ) (st : SignSt) :
    Limb.signLoop x.gen f msg32 seckey noncedata sec msg fuel i st =
      Model.signLoop X.gen f msg32 seckey noncedata sec msg fuel i st := by
  induction fuel generalizing i st with
  | zero => rfl
  | succ fuel ih =>
    rw [Limb.signLoop, Model.signLoop]
    simp only [ecdsaSigSign_eq h, ih]
    cases f i msg32 seckey none noncedata (UInt32.ofNat i) <;> rfl

theorem ecdsaSignInner_eq (h : CtxLimb x X) (fuel : ℕ) (msg32 seckey : List UInt8) (f : Option NonceFn)
    (nd : Option (List UInt8)) :
    Limb.ecdsaSignInner fuel x msg32 seckey f nd = Model.ecdsaSignInner fuel X msg32 seckey f nd := by
  unfold Limb.ecdsaSignInner Model.ecdsaSignInner
  dsimp only
  rw [signLoop_eq h]
  generalize Model.signLoop X.gen _ _ _ _ _ _ _ _ _ = r
  cases r <;> rfl

theorem ecdsaSign_eq (h : CtxLimb x X) (fuel : ℕ) (sig msg seckey : Option (List UInt8)) (f : Option NonceFn)
    (nd : Option (List UInt8)) :
    Limb.ecdsaSign fuel x sig msg seckey f nd = Model.ecdsaSign fuel X sig msg seckey f nd := by
  unfold Limb.ecdsaSign Model.ecdsaSign
  simp only [h.built, ecdsaSignInner_eq h]
  generalize Model.ecmultGenIsBuilt X.gen = b
  cases b
  · rfl
  · cases msg with
    | none => rfl
    | some m =>
      cases sig with
      | none => rfl
      | some s =>
        cases seckey with
        | none => rfl
        | some k =>
          dsimp only
          generalize Model.ecdsaSignInner fuel X m k f nd = r
          cases r <;> rfl

theorem ecdsaSignRecoverable_eq (h : CtxLimb x X) (fuel : ℕ) (sig msg seckey : Option (List UInt8))
    (f : Option NonceFn) (nd : Option (List UInt8)) :
    Limb.ecdsaSignRecoverable fuel x sig msg seckey f nd = Model.ecdsaSignRecoverable fuel X sig msg seckey f nd := by
  unfold Limb.ecdsaSignRecoverable Model.ecdsaSignRecoverable
  simp only [h.built, ecdsaSignInner_eq h]
  generalize Model.ecmultGenIsBuilt X.gen = b
  cases b
  · rfl
  · cases msg with
    | none => rfl
    | some m =>
      cases sig with
      | none => rfl
      | some s =>
        cases seckey with
        | none => rfl
        | some k =>
          dsimp only
          generalize Model.ecdsaSignInner fuel X m k f nd = r
          cases r <;> rfl

variable (α) in
theorem recoverX_limb (r : Fn) (recid : ℕ) :
    Option.Rel (fun u U => Rep u 2 U) (Limb.recoverX α r recid) (Model.recoverX r recid) := by
  have n := sigr_norm α r
  have e3 : Limb.feCmpVar (Limb.feSetB32Limit (scGetB32 r)).1 (Limb.ecdsaPMinusOrder : α) =
      Model.feCmpVar (Model.feSetB32Limit (scGetB32 r)).1 Model.ecdsaPMinusOrder := MemRep.cmpVar n pmo_norm
  unfold Limb.recoverX Model.recoverX
  dsimp only
  rw [e3]
  split_ifs
  · exact .none
  · exact .some ((MemRep.rep n).add' (MemRep.rep ord_norm))
  · exact .some ((MemRep.rep n).mono (by omega))

variable (α) in
theorem ecdsaSigRecover_limb (r s m : Fn) (recid : ℕ) :
    Option.Rel GeLimb (Limb.ecdsaSigRecover α r s m recid) (Model.ecdsaSigRecover r s m recid) := by
  have hx := recoverX_limb α r recid
  unfold Limb.ecdsaSigRecover Model.ecdsaSigRecover
  dsimp only
  by_cases c1 : (scIsZero r || scIsZero s) = true
  · rw [if_pos c1, if_pos c1]
    exact .none
  · rw [if_neg c1, if_neg c1]
    revert hx
    generalize Limb.recoverX α r recid = u
    generalize Model.recoverX r recid = U
    intro hx
    cases hx with
    | none => exact .none
    | some hx =>
      obtain ⟨e, l⟩ := geSetXoVar_limb hx (decide (recid &&& 1 ≠ 0))
      have mm := ecmult_l l.gej (r⁻¹ * s) (some (-(r⁻¹ * m)))
      dsimp only
      rw [e, mm.inf]
      split_ifs
      · exact .none
      · exact .some (mm.ge MemRep.inv)
      · exact .none

theorem ecdsaRecover_eq (pk sig msg : Option (List UInt8)) :
    Limb.ecdsaRecover α pk sig msg = Model.ecdsaRecover pk sig msg := by
  unfold Limb.ecdsaRecover Model.ecdsaRecover
  cases msg with
  | none => rfl
  | some msg =>
    cases sig with
    | none => rfl
    | some sig =>
      cases pk with
      | none => rfl
      | some pk =>
        dsimp only
        have hx := ecdsaSigRecover_limb α (recoverableLoad sig).1 (recoverableLoad sig).2.1 (scSetB32 msg).1
          (recoverableLoad sig).2.2
        revert hx
        generalize Limb.ecdsaSigRecover α _ _ _ _ = u
        generalize Model.ecdsaSigRecover _ _ _ _ = U
        intro hx
        cases hx with
        | none => rfl
        | some l =>
          dsimp only
          rw [pubkeySave_limb l]

/-! ### ECDH -/

theorem ecdh_eq (output point scalar : Option (List UInt8)) (f : Option EcdhHash) :
    Limb.ecdh α output point scalar f = Model.ecdh output point scalar f := by
  unfold Limb.ecdh Model.ecdh
  cases output with
  | none => rfl
  | some out =>
    cases point with
    | none => rfl
    | some point =>
      cases scalar with
      | none => rfl
      | some scalar =>
        obtain ⟨e, l⟩ := pubkeyLoad_limb α point
        dsimp only
        have m := (ecmultConst_limb l
          (scCmov (scSetB32 scalar).1 1 ((scSetB32 scalar).2 || scIsZero (scSetB32 scalar).1))).ge MemRep.inv
        rw [e, norm_b32 m.x, norm_b32 m.y]

end Limb

end Secp.Model
