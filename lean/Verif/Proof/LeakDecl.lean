import Verif.Proof.LeakMusig

/-!
# Which values are declassified
-/

namespace Secp.Leak

open Model (Ge Gej Ctx GenCtx zeros put cInt)

/-- Every declassified value satisfies `P`. -/
def Decl {α : Type} (P : List Nat → Prop) (m : Ct α) : Prop := ∀ v ∈ declassified m.trace, P v

section
variable {α β : Type} {P : List Nat → Prop}

theorem Decl.pure (a : α) : Decl P (Pure.pure a : Ct α) := fun _ h => by cases h

theorem Decl.branch (b : Bool) : Decl P (branch b) := fun _ h => by cases h

theorem Decl.access (i : Nat) : Decl P (access i) := fun _ h => by cases h

theorem Decl.vartime (l : List Nat) (a : α) : Decl P (vartime l a) := fun _ h => by cases h

theorem Decl.declassify {l : List Nat} (h : P l) : Decl P (declassify l) := by
  intro v hv
  have : v ∈ [l] := hv
  simp at this
  rwa [this]

theorem Decl.bind {m : Ct α} {f : α → Ct β} (h : Decl P m) (hf : ∀ a, Decl P (f a)) :
    Decl P (m >>= f) := by
  intro v hv
  rw [trace_bind, declassified_append, List.mem_append] at hv
  exact hv.elim (h v) (hf _ v)

theorem Decl.ite {c : Prop} [Decidable c] {m m' : Ct α} (h : Decl P m) (h' : Decl P m') :
    Decl P (if c then m else m') := by
  split
  · exact h
  · exact h'

theorem decl_memcpy (b : List UInt8) (o : Nat) (d : List UInt8) : Decl P (memcpy b o d) :=
  .bind (.access _) fun _ => .bind (.access _) fun _ => .pure _

theorem decl_writeLoop (fuel : Nat) : ∀ s b o d, Decl P (writeLoop fuel s b o d) := by
  induction fuel with
  | zero => intros; exact .pure _
  | succ f ih =>
    intros
    exact .bind (.branch _) fun _ => .ite (.bind (decl_memcpy _ _ _) fun _ => ih _ _ _ _)
      (.bind (.branch _) fun _ => .ite (.bind (decl_memcpy _ _ _) fun _ => .pure _) (.pure _))

theorem decl_write (h : Hash.Sha) (d : List UInt8) : Decl P (write h d) :=
  .bind (decl_writeLoop _ _ _ _ _) fun _ => .pure _

theorem decl_finalize (h : Hash.Sha) : Decl P (finalize h) :=
  .bind (decl_write _ _) fun _ => .bind (decl_write _ _) fun _ => .pure _

theorem decl_hmacRkey (k : List UInt8) : Decl P (hmacRkey k) :=
  .bind (.branch _) fun _ => .ite (.bind (.access _) fun _ => .pure _)
    (.bind (decl_write _ _) fun _ => .bind (decl_finalize _) fun _ => .pure _)

theorem decl_hmacWrites (ws : List (List UInt8)) : ∀ h, Decl P (hmacWrites h ws) := by
  induction ws with
  | nil => intro h; exact .pure _
  | cons w ws ih => intro h; exact .bind (.bind (decl_write _ _) fun _ => .pure _) fun _ => ih _

theorem decl_hmacSeq (k : List UInt8) (ws : List (List UInt8)) : Decl P (hmacSeq k ws) := by
  refine .bind ?_ fun _ => .bind (decl_hmacWrites _ _) fun _ => .bind ?_ fun _ => .pure _
  · exact .bind (decl_hmacRkey _) fun _ => .bind (decl_write _ _) fun _ => .bind (decl_write _ _)
      fun _ => .pure _
  · exact .bind (decl_finalize _) fun _ => .bind (decl_write _ _) fun _ => .bind (decl_finalize _)
      fun _ => .pure _

theorem decl_rngInitialize (k : List UInt8) : Decl P (rngInitialize k) :=
  .bind (decl_hmacSeq _ _) fun _ => .bind (decl_hmacSeq _ _) fun _ => .bind (decl_hmacSeq _ _) fun _ =>
    .bind (decl_hmacSeq _ _) fun _ => .pure _

theorem decl_rngLoop (k : List UInt8) (fuel : Nat) : ∀ v o, Decl P (rngLoop k fuel v o) := by
  induction fuel with
  | zero => intros; exact .pure _
  | succ f ih =>
    intros
    exact .bind (.branch _) fun _ => .ite (.bind (decl_hmacSeq _ _) fun _ => .bind (.branch _) fun _ =>
      .bind (.access _) fun _ => .bind (ih _ _) fun _ => .pure _) (.pure _)

theorem decl_rngGenerate (r : Hash.Rng) (o : Nat) : Decl P (rngGenerate r o) :=
  .bind (.branch _) fun _ => .ite
    (.bind (decl_hmacSeq _ _) fun _ => .bind (decl_hmacSeq _ _) fun _ => .bind (.pure _) fun _ =>
      .bind (decl_rngLoop _ _ _ _) fun _ => .pure _)
    (.bind (.pure _) fun _ => .bind (decl_rngLoop _ _ _ _) fun _ => .pure _)

theorem decl_genGather (rec : List UInt32) (sp k : Nat) : ∀ t b p, Decl P (genGather rec sp k t b p) := by
  induction k with
  | zero => intros; exact .pure _
  | succ k ih => intros; exact .bind (.access _) fun _ => ih _ _ _

theorem decl_genLookup (c : Model.CombCfg) (block : Nat) (abs : UInt32) (l : List Nat) :
    ∀ a, Decl P (genLookup c block abs l a) := by
  induction l with
  | nil => intros; exact .pure _
  | cons i l ih => intros; exact .bind (.access _) fun _ => .bind (.access _) fun _ => ih _

theorem decl_genInner (ctx : GenCtx) (rec : List UInt32) (l : List Nat) :
    ∀ st, Decl P (genInner ctx rec l st) := by
  induction l with
  | nil => intros; exact .pure _
  | cons i l ih =>
    intros
    exact .bind (.bind (decl_genGather _ _ _ _ _ _) fun _ => .bind (decl_genLookup _ _ _ _ _) fun _ =>
      .bind (.branch _) fun _ => .ite (.pure _) (.pure _)) fun _ => ih _

theorem decl_genOuter (ctx : GenCtx) (rec : List UInt32) (k : Nat) :
    ∀ st, Decl P (genOuter ctx rec k st) := by
  induction k with
  | zero => intros; exact .bind (decl_genInner _ _ _ _) fun _ => .bind (.branch _) fun _ => .pure _
  | succ k ih => intros; exact .bind (decl_genInner _ _ _ _) fun _ => .bind (.branch _) fun _ => ih _

theorem decl_ecmultGen (ctx : GenCtx) (a : Fn) : Decl P (ecmultGen ctx a) :=
  .bind (decl_genOuter _ _ _ _) fun _ => .pure _

end

/-! ## ECDSA -/

theorem decl_rfc6979Loop {P : List Nat → Prop} (k : Nat) : ∀ r o, Decl P (rfc6979Loop k r o) := by
  induction k with
  | zero => intros; exact .bind (.branch _) fun _ => .pure _
  | succ k ih =>
    intros
    exact .bind (.branch _) fun _ => .bind (decl_rngGenerate _ _) fun _ => ih _ _

theorem decl_rfc6979 {P : List Nat → Prop} (m k : List UInt8) (a d : Option (List UInt8)) (c : UInt32) :
    Decl P (nonceFunctionRfc6979 m k a d c) :=
  .bind (.branch _) fun _ => .bind (.branch _) fun _ => .bind (.branch _) fun _ => .ite (.pure _)
    (.bind (decl_rngInitialize _) fun _ => .bind (decl_rfc6979Loop _ _ _) fun _ => .pure _)

/-- A single bit. -/
def IsBit (v : List Nat) : Prop := v = [0] ∨ v = [1]

theorem isBit (b : Bool) : IsBit [b.toNat] := by cases b <;> simp [IsBit]

theorem decl_signLoop (g : GenCtx) {f : NonceFn} (hf : ∀ i m k a d c, Decl IsBit (f i m k a d c)) (r : Bool)
    (m k : List UInt8) (d : Option (List UInt8)) (a b : Fn) (fuel : Nat) :
    ∀ i st, Decl IsBit (signLoop g f r m k d a b fuel i st) := by
  induction fuel with
  | zero => intros; exact .pure _
  | succ fuel ih =>
    intro i st
    refine .bind (hf _ _ _ _ _ _) fun x => ?_
    match x with
    | none => exact .pure _
    | some (x, o) =>
      refine .bind (.branch _) fun _ => .ite (.pure _) (.bind (.declassify (isBit _)) fun _ =>
        .bind (.branch _) fun _ => .ite ?_ (ih _ _))
      refine .bind (.bind (decl_ecmultGen _ _) fun _ => .bind (.branch _) fun _ => .bind (.branch _) fun _ =>
        .pure _) fun _ => .bind (.declassify (isBit _)) fun _ => .bind (.branch _) fun _ => .ite (.pure _)
        (ih _ _)

theorem decl_ecdsaSignWith (save : Model.SignSt → List UInt8) (r : Bool) (fuel : Nat) (c : Ctx)
    (s m k : Option (List UInt8)) {f : Option NonceFn}
    (hf : ∀ g, f = some g → ∀ i m k a d c, Decl IsBit (g i m k a d c)) (d : Option (List UInt8)) :
    Decl IsBit (ecdsaSignWith save r fuel c s m k f d) := by
  have hf' : ∀ i m k a d c, Decl IsBit (nonceFnOrDefault f i m k a d c) := by
    cases f with
    | none => intros; exact decl_rfc6979 _ _ _ _ _
    | some g => exact hf g rfl
  refine .bind (.branch _) fun _ => .ite (.pure _) (.bind (.branch _) fun _ => ?_)
  cases m with
  | none => exact .pure _
  | some m =>
  refine .bind (.branch _) fun _ => ?_
  cases s with
  | none => exact .pure _
  | some s =>
  refine .bind (.branch _) fun _ => ?_
  cases k with
  | none => exact .pure _
  | some k =>
  refine .bind (.bind (.branch _) fun _ => .bind (.branch _) fun _ =>
    .bind (decl_signLoop _ hf' _ _ _ _ _ _ _ _ _) fun x => ?_) fun x => ?_
  · cases x with
    | none => exact .pure _
    | some x => exact .bind (.branch _) fun _ => .pure _
  · cases x <;> exact .pure _

theorem declassified_bind {α β : Type} (m : Ct α) (f : α → Ct β) :
    declassified (m >>= f).trace = declassified m.trace ++ declassified (f m.val).trace := by
  rw [trace_bind, declassified_append]

theorem quiet {α : Type} {m : Ct α} (h : Decl (fun _ => False) m) : declassified m.trace = [] :=
  List.eq_nil_iff_forall_not_mem.mpr h

theorem declassified_branch {β : Type} (b : Bool) (f : Bool → Ct β) :
    declassified (branch b >>= f).trace = declassified (f b).trace := rfl

theorem declassified_pure {α : Type} (a : α) : declassified (pure a : Ct α).trace = [] := rfl

theorem declassified_declassify {β : Type} (l : List Nat) (f : Unit → Ct β) :
    declassified (declassify l >>= f).trace = l :: declassified (f ()).trace := rfl

theorem quiet_ecdsaSigSign {P : List Nat → Prop} (g : GenCtx) (a b c : Fn) (r : Bool) :
    Decl P (ecdsaSigSign g a b c r) :=
  .bind (decl_ecmultGen _ _) fun _ => .bind (.branch _) fun _ => .bind (.branch _) fun _ => .pure _

/-- When the first nonce is good, two bits are declassified, and both are 1. -/
theorem signLoop_first (g : GenCtx) {f : NonceFn} (hf : ∀ i m k a d c, Decl (fun _ => False) (f i m k a d c))
    (r : Bool) (m k : List UInt8) (d : Option (List UInt8)) (a b : Fn) (st st1 : Model.SignSt)
    (h : (signLoop g f r m k d a b 1 0 st).val = some st1) (h1 : st1.ret = true) :
    declassified (signLoop g f r m k d a b 1 0 st).trace = [[1], [1]] := by
  unfold signLoop at h ⊢
  rw [val_bind] at h
  rw [declassified_bind, quiet (hf _ _ _ _ _ _), List.nil_append]
  generalize (f 0 m k none d (UInt32.ofNat 0)).val = x at h ⊢
  match x with
  | none => cases h
  | some (ret, o) =>
    dsimp only at h ⊢
    rw [val_branch_bind] at h
    rw [declassified_branch]
    by_cases hr : ret = 0
    · rw [if_pos (by simp [hr])] at h
      obtain rfl := Option.some.inj h
      cases h1
    rw [if_neg (by simp [hr])] at h ⊢
    rw [val_bind, val_branch_bind] at h
    rw [declassified_declassify, declassified_branch]
    cases hn : (Model.scSetB32Seckey o).2 with
    | false => rw [hn, if_neg (by simp)] at h; cases h
    | true =>
      rw [hn, if_pos rfl, val_bind, val_bind, val_branch_bind] at h
      rw [if_pos rfl, declassified_bind, quiet (quiet_ecdsaSigSign _ _ _ _ _), List.nil_append,
        declassified_declassify, declassified_branch]
      generalize (ecdsaSigSign g a b (Model.scSetB32Seckey o).1 r).val = w at h ⊢
      cases hw : w.ret with
      | false => rw [hw, if_neg (by simp)] at h; cases h
      | true => rw [if_pos rfl]; rfl

/-- The same for `secp256k1_ecdsa_sign` and `secp256k1_ecdsa_sign_recoverable`. -/
theorem ecdsaSignWith_first (save : Model.SignSt → List UInt8) (r : Bool) {c : Ctx}
    (hc : c.gen.built = true) (s m k : List UInt8) {f : Option NonceFn}
    (hf : ∀ g, f = some g → ∀ i m k a d c, Decl (fun _ => False) (g i m k a d c))
    (d : Option (List UInt8)) {o : Out (Option (List UInt8))}
    (h : (ecdsaSignWith save r 1 c (some s) (some m) (some k) f d).val = some o) (h1 : o.ret = 1) :
    declassified (ecdsaSignWith save r 1 c (some s) (some m) (some k) f d).trace = [[1], [1]] := by
  have hf' : ∀ i m k a d c, Decl (fun _ => False) (nonceFnOrDefault f i m k a d c) := by
    cases f with
    | none => intros; exact decl_rfc6979 _ _ _ _ _
    | some g => exact hf g rfl
  unfold ecdsaSignWith Model.ecmultGenIsBuilt ecdsaSignInner at h ⊢
  rw [hc] at h ⊢
  rw [val_branch_bind, if_neg (by simp), val_branch_bind, val_branch_bind, val_branch_bind, val_bind,
    val_branch_bind, val_branch_bind, val_bind] at h
  rw [declassified_branch, if_neg (by simp), declassified_branch, declassified_branch, declassified_branch,
    declassified_bind, declassified_branch, declassified_branch, val_branch_bind, val_branch_bind,
    declassified_bind, val_bind]
  cases hx : (signLoop c.gen (nonceFnOrDefault f) r m k d
      (Model.scCmov (Model.scSetB32Seckey k).1 1 !(Model.scSetB32Seckey k).2) (Model.scSetB32 m).1 1 0
      ⟨0, 0, 0, false⟩).val with
  | none => rw [hx] at h; cases h
  | some st =>
    rw [hx] at h
    dsimp only at h ⊢
    have hret : st.ret = true := by
      obtain rfl := Option.some.inj h
      cases hs : st.ret with
      | true => rfl
      | false => rw [hs] at h1; cases h1
    rw [signLoop_first c.gen hf' r m k d _ _ _ st hx hret]
    rfl

/-! ## Schnorr signatures -/

theorem decl_bip340 {P : List Nat → Prop} (m k pk : List UInt8) (a d : Option (List UInt8)) :
    Decl P (nonceFunctionBip340 m k pk a d) := by
  refine .bind (.branch _) fun _ => ?_
  cases a with
  | none => exact .pure _
  | some a =>
    refine .bind (.bind (.branch _) fun _ => ?_) fun _ => .bind (.bind (.bind (.branch _) fun _ =>
      .ite (.vartime _ _) (.pure _)) fun _ => .bind (.branch _) fun _ => .ite (.pure _) ?_) fun _ =>
      .bind (decl_write _ _) fun _ => .bind (decl_write _ _) fun _ => .bind (decl_write _ _) fun _ =>
      .bind (decl_finalize _) fun _ => .pure _
    · cases d with
      | none => exact .pure _
      | some d => exact .bind (decl_write _ _) fun _ => .bind (decl_finalize _) fun _ => .pure _
    · exact .bind (decl_write _ _) fun _ => .bind (decl_finalize _) fun _ => .bind (decl_write _ _)
        fun _ => decl_write _ _

theorem decl_schnorrsigChallenge {P : List Nat → Prop} (r m pk : List UInt8) :
    Decl P (schnorrsigChallenge r m pk) :=
  .bind (decl_write _ _) fun _ => .bind (decl_write _ _) fun _ => .bind (decl_write _ _) fun _ =>
    .bind (decl_finalize _) fun _ => .pure _

theorem keypairLoad_declassified {k : List UInt8} (h : (Model.keypairLoad k).2.2 = true) :
    declassified (keypairLoad k).trace = [bytesNats ((k.drop 32).take 64), [1]] := by
  have h1 : (Model.pubkeyLoad ((k.drop 32).take 64)).2 = true ∧ (Model.scSetB32Seckey k).2 = true := by
    rw [pubkeyLoad_take]
    unfold Model.keypairLoad Model.keypairSeckeyLoad at h
    dsimp only at h
    cases h2 : (Model.pubkeyLoad (k.drop 32)).2 <;> cases h3 : (Model.scSetB32Seckey k).2 <;>
      simp [h2, h3] at h ⊢
  unfold keypairLoad
  rw [declassified_declassify, declassified_bind, declassified_bind, val_pubkeyLoad, h1.1]
  unfold keypairSkOf keypairSeckeyLoad
  have h2 := h1.2
  generalize Model.scSetB32Seckey k = s at h2 ⊢
  obtain ⟨x, b⟩ := s
  obtain rfl : b = true := h2
  rfl

/-- With a valid keypair the library declassifies the public key, that the secret key is valid, and the
point whose x coordinate is the first half of the signature. -/
theorem schnorrsigSignCore_declassified (g : GenCtx) (m k : List UInt8) {f : NonceHardened}
    (hf : ∀ m k pk a d, Decl (fun _ => False) (f m k pk a d)) (d : Option (List UInt8))
    (h : (Model.keypairLoad k).2.2 = true) :
    ∃ R : Ge Fp, declassified (schnorrsigSignCore g m k f d).trace =
        [bytesNats ((k.drop 32).take 64), [1], geNats R] ∧
      ((schnorrsigSignCore g m k f d).val.1 = true →
        ((schnorrsigSignCore g m k f d).val.2.1).take 32 = Model.feGetB32 R.x) := by
  unfold schnorrsigSignCore
  rw [declassified_bind, keypairLoad_declassified h, val_bind, declassified_branch, val_branch_bind,
    declassified_bind, quiet (hf _ _ _ _ _), List.nil_append, val_bind]
  generalize Ct.val (f _ _ _ _ _) = nc
  rw [declassified_bind, quiet (decl_ecmultGen _ _), List.nil_append, val_bind, declassified_declassify]
  generalize Model.geSetGej (α := Fp) _ = R
  refine ⟨R, ?_, ?_⟩
  · rw [declassified_bind, declassified_branch, declassified_bind, declassified_bind,
      quiet (decl_schnorrsigChallenge _ _ _)]
    rfl
  · rw [val_bind, val_bind, val_vartime, val_branch_bind, val_bind, val_vartime, val_bind, val_pure]
    dsimp only
    intro hr
    rw [hr, Model.memczero, if_neg (by simp), List.take_left' (feGetB32_len _)]
    rfl

/-- With a nonce function that always writes the same number, signing with two keypairs that have the same
public part declassifies the same values. -/
theorem schnorrsigSignCore_const (g : GenCtx) (m m' : List UInt8) {k k' : List UInt8} (b : List UInt8)
    (d d' : Option (List UInt8)) (h : (Model.keypairLoad k).2.2 = true)
    (h' : (Model.keypairLoad k').2.2 = true) (e : k.drop 32 = k'.drop 32) :
    declassified (schnorrsigSignCore g m k (fun _ _ _ _ _ => pure (1, b)) d).trace =
      declassified (schnorrsigSignCore g m' k' (fun _ _ _ _ _ => pure (1, b)) d').trace := by
  unfold schnorrsigSignCore
  rw [declassified_bind, keypairLoad_declassified h, declassified_branch,
    declassified_bind, declassified_pure, List.nil_append, val_pure, declassified_bind,
    quiet (decl_ecmultGen _ _), List.nil_append, declassified_declassify, declassified_bind,
    declassified_branch, declassified_bind, declassified_bind, quiet (decl_schnorrsigChallenge _ _ _),
    val_keypairLoad, h]
  rw [declassified_bind, keypairLoad_declassified h', declassified_branch,
    declassified_bind, declassified_pure, List.nil_append, val_pure, declassified_bind,
    quiet (decl_ecmultGen _ _), List.nil_append, declassified_declassify, declassified_bind,
    declassified_branch, declassified_bind, declassified_bind, quiet (decl_schnorrsigChallenge _ _ _),
    val_keypairLoad, h', e]
  rfl

end Secp.Leak
