import Verif.Proof.Leak

/-! # What the constant-time multiplications reveal -/

namespace Secp.Leak

open Model (Ge Gej)

/-! ## The results -/

@[simp] theorem val_genGather (rec : List UInt32) (spacing k : Nat) : ∀ tooth bits bitPos,
    (genGather rec spacing k tooth bits bitPos).val = Model.genGather rec spacing k tooth bits bitPos := by
  induction k with
  | zero => intros; rfl
  | succ k ih => intros; simp only [genGather, val_bind, ih]; rfl

theorem val_genLookup (c : Model.CombCfg) (block : Nat) (abs : UInt32) (l : List Nat) : ∀ adds,
    (genLookup c block abs l adds).val =
      l.foldl (fun adds index => if UInt32.ofNat index = abs then c.table block index else adds) adds := by
  induction l with
  | nil => intros; rfl
  | cons i l ih => intro adds; simp only [genLookup, val_bind, ih]; rfl

@[simp] theorem val_genBlock (ctx : Model.GenCtx) (rec : List UInt32) (st : Model.GenState) (block : Nat) :
    (genBlock ctx rec st block).val = Model.genBlock ctx rec st block := by
  cases h : st.first <;>
  simp only [genBlock, Model.genBlock, Model.genLookup, val_bind, val_genGather, val_genLookup, val_branch,
    h, if_true, if_false, Bool.false_eq_true, val_pure]

@[simp] theorem val_genInner (ctx : Model.GenCtx) (rec : List UInt32) (l : List Nat) : ∀ st,
    (genInner ctx rec l st).val = l.foldl (Model.genBlock ctx rec) st := by
  induction l with
  | nil => intros; rfl
  | cons i l ih =>
    intro st
    rw [genInner, val_bind, ih, val_genBlock, List.foldl_cons]

theorem downLoop_succ {σ : Type} (body : Nat → σ → σ) (after : σ → σ) (k : Nat) (st : σ) :
    Model.downLoop body after (k + 1) st = Model.downLoop body after k (after (body (k + 1) st)) := rfl

@[simp] theorem val_genOuter (ctx : Model.GenCtx) (rec : List UInt32) (k : Nat) : ∀ st,
    (genOuter ctx rec k st).val = Model.genOuter ctx rec k st := by
  induction k with
  | zero =>
    intro st
    rw [genOuter, val_bind, val_bind, val_genInner, val_pure, Model.genOuter, Model.downLoop, Model.genInner]
  | succ k ih =>
    intro st
    rw [genOuter, val_bind, val_bind, ih, val_genInner, Model.genOuter, Model.genOuter, downLoop_succ,
      Model.genInner]

@[simp] theorem val_ecmultGen (ctx : Model.GenCtx) (gn : Fn) :
    (ecmultGen ctx gn).val = Model.ecmultGen ctx gn := by
  simp only [ecmultGen, Model.ecmultGen, val_bind, val_genOuter, val_pure]

@[simp] theorem val_ecmultGenBlind (ctx : Model.GenCtx) (seed : Option (List UInt8)) :
    (ecmultGenBlind ctx seed).val = Model.ecmultGenBlind ctx seed := by
  cases seed <;>
  simp only [ecmultGenBlind, Model.ecmultGenBlind, val_bind, val_ecmultGen, val_pure,
    val_rngInitialize, val_rngGenerate, Model.genBlindApply]

@[simp] theorem val_constTableGetLoop (pre : List (Ge Fp)) (index m : Nat) :
    (constTableGetLoop pre index m).val = Model.constTableGetLoop pre index m := by
  induction m with
  | zero => rfl
  | succ m ih => simp only [constTableGetLoop, val_bind, ih]; rfl

@[simp] theorem val_constTableGetGe (pre : List (Ge Fp)) (k : Nat) :
    (constTableGetGe pre k).val = Model.constTableGetGe pre k := by
  simp only [constTableGetGe, val_bind, val_constTableGetLoop]; rfl

@[simp] theorem val_scGetBitsVar (a : Fn) (o c : Nat) :
    (scGetBitsVar a o c).val = Model.scGetBits a o c := rfl

@[simp] theorem val_constLoop (p q : List (Ge Fp)) (v1 v2 : Fn) (g : Nat) : ∀ r,
    (constLoop p q v1 v2 g r).val = Model.constLoop p q v1 v2 g r := by
  induction g with
  | zero => intros; rfl
  | succ g ih =>
    intro r
    simp only [constLoop, Model.constLoop, val_bind, ih, val_scGetBitsVar, val_constTableGetGe, val_branch]
    by_cases h : g = Model.constGroups - 1 <;> simp [h]

@[simp] theorem val_ecmultConst (a : Ge Fp) (q : Fn) :
    (ecmultConst a q).val = Model.ecmultConst a q := by
  rw [ecmultConst, Model.ecmultConst]
  simp only [↓val_branch_ite, val_bind, val_vartime, val_constLoop, val_pure]

@[simp] theorem val_constXonlyOk (c : Fp) (k : Bool) :
    (constXonlyOk c k).val = (k || Model.feIsSquareVar c) := by
  cases k <;> simp [constXonlyOk]

@[simp] theorem val_ecmultConstXonly (n : Fp) (d : Option Fp) (q : Fn) (k : Bool) :
    (ecmultConstXonly n d q k).val = Model.ecmultConstXonly n d q k := by
  cases d <;>
  · rw [ecmultConstXonly, Model.ecmultConstXonly]
    simp only [↓val_branch_ite, val_bind, val_constXonlyOk,
      val_ecmultConst, val_pure]

/-! ## The traces -/

theorem same_genGather (rec rec' : List UInt32) (spacing k : Nat) : ∀ {tooth bits bits' bitPos},
    Same (fun r r' => r.2 = r'.2) (genGather rec spacing k tooth bits bitPos)
      (genGather rec' spacing k tooth bits' bitPos) := by
  induction k with
  | zero => intros; exact Same.pure rfl
  | succ k ih => intros; exact Same.bind (Same.access rfl) fun _ _ _ => ih

theorem same_genLookup (c : Model.CombCfg) (block : Nat) (abs abs' : UInt32) (l : List Nat) :
    ∀ {adds adds'},
    Same (fun _ _ => True) (genLookup c block abs l adds) (genLookup c block abs' l adds') := by
  induction l with
  | nil => intros; exact Same.pure trivial
  | cons i l ih =>
    intros
    exact Same.bind (Same.access rfl) fun _ _ _ => Same.bind (Same.access rfl) fun _ _ _ => ih

/-- What an observer knows of the state of the loop. -/
def GenEq (s s' : Model.GenState) : Prop := s.first = s'.first ∧ s.bitPos = s'.bitPos

theorem same_genBlock {ctx ctx' : Model.GenCtx} (hc : ctx.cfg = ctx'.cfg) (rec rec' : List UInt32)
    {st st' : Model.GenState} (h : GenEq st st') (block : Nat) :
    Same GenEq (genBlock ctx rec st block) (genBlock ctx' rec' st' block) := by
  unfold genBlock
  rw [← hc, ← h.2]
  refine Same.bind (same_genGather _ _ _ _) fun g g' hg => ?_
  refine Same.bind (same_genLookup _ _ _ _ _) fun _ _ _ => ?_
  exact Same.bind (Same.branch h.1) fun _ _ hb => Same.ite hb (fun _ => Same.pure ⟨rfl, hg⟩)
    fun _ => Same.pure ⟨rfl, hg⟩

theorem same_genInner {ctx ctx' : Model.GenCtx} (hc : ctx.cfg = ctx'.cfg) (rec rec' : List UInt32)
    (l : List Nat) : ∀ {st st' : Model.GenState}, GenEq st st' →
    Same GenEq (genInner ctx rec l st) (genInner ctx' rec' l st') := by
  induction l with
  | nil => intro st st' h; exact Same.pure h
  | cons i l ih => intro st st' h; exact Same.bind (same_genBlock hc _ _ h i) fun _ _ h1 => ih h1

theorem same_genOuter {ctx ctx' : Model.GenCtx} (hc : ctx.cfg = ctx'.cfg) (rec rec' : List UInt32)
    (k : Nat) : ∀ {st st' : Model.GenState}, GenEq st st' →
    Same GenEq (genOuter ctx rec k st) (genOuter ctx' rec' k st') := by
  induction k with
  | zero =>
    intro st st' h
    unfold genOuter
    rw [← hc]
    refine Same.bind (same_genInner hc _ _ _ ⟨h.1, rfl⟩) fun _ _ h1 => ?_
    exact Same.bind (Same.branch rfl) fun _ _ _ => Same.pure h1
  | succ k ih =>
    intro st st' h
    unfold genOuter
    rw [← hc]
    refine Same.bind (same_genInner hc _ _ _ ⟨h.1, rfl⟩) fun _ _ h1 => ?_
    refine Same.bind (Same.branch rfl) fun a b hab => ih ?_
    unfold Model.genDouble
    exact ⟨h1.1, h1.2⟩

/-- What `secp256k1_ecmult_gen` reveals depends on the table only. -/
theorem same_ecmultGen {ctx ctx' : Model.GenCtx} (hc : ctx.cfg = ctx'.cfg) (a b : Fn) :
    Same (fun _ _ => True) (ecmultGen ctx a) (ecmultGen ctx' b) := by
  unfold ecmultGen
  rw [← hc]
  exact Same.bind (same_genOuter hc _ _ _ ⟨rfl, rfl⟩) fun _ _ _ => Same.pure trivial

theorem scGetB32_len (a : Fn) : (Model.scGetB32 a).length = 32 := by
  simp [Model.scGetB32, Spec.beBytes]

theorem genBlindReset_cfg (ctx : Model.GenCtx) : (Model.genBlindReset ctx).cfg = ctx.cfg := by
  unfold Model.genBlindReset; rfl

theorem same_blind {ctx ctx' : Model.GenCtx} (hc : ctx.cfg = ctx'.cfg) {k k' : List UInt8}
    (hk : k.length = k'.length) (f f' : List UInt8 → Fp) (g g' : List UInt8 → Fn) :
    Same (fun c c' => c.cfg = c'.cfg)
      (do
        let rng ← rngInitialize k
        let g1 ← rngGenerate rng 32
        let g2 ← rngGenerate g1.2 32
        let gb ← ecmultGen { ctx with projBlind := f g1.1 } (g g2.1)
        return { ctx with projBlind := f g1.1, scalarOffset := -g g2.1 + Model.genScalarDiff ctx.cfg,
                          geOffset := Model.geSetGej gb })
      (do
        let rng ← rngInitialize k'
        let g1 ← rngGenerate rng 32
        let g2 ← rngGenerate g1.2 32
        let gb ← ecmultGen { ctx' with projBlind := f' g1.1 } (g' g2.1)
        return { ctx' with projBlind := f' g1.1, scalarOffset := -g' g2.1 + Model.genScalarDiff ctx'.cfg,
                           geOffset := Model.geSetGej gb }) := by
  refine Same.bind (same_rngInitialize hk) fun _ _ h1 => ?_
  refine Same.bind (same_rngGenerate h1 32) fun _ _ h2 => Same.bind (same_rngGenerate h2.2 32)
    fun _ _ h3 => ?_
  refine Same.bind (same_ecmultGen ?_ _ _) fun _ _ _ => Same.pure ?_
  · exact hc
  · exact hc

theorem same_ecmultGenBlind {ctx ctx' : Model.GenCtx} (hc : ctx.cfg = ctx'.cfg)
    {seed seed' : Option (List UInt8)} (hs : seed.map List.length = seed'.map List.length) :
    Same (fun c c' => c.cfg = c'.cfg) (ecmultGenBlind ctx seed) (ecmultGenBlind ctx' seed') := by
  match seed, seed' with
  | none, none =>
    rw [ecmultGenBlind, ecmultGenBlind]
    refine Same.bind (Same.branch rfl) fun _ _ _ => Same.pure ?_
    rw [genBlindReset_cfg, genBlindReset_cfg]
    exact hc
  | some s, some s' =>
    have hl : s.length = s'.length := by simpa using hs
    rw [ecmultGenBlind, ecmultGenBlind]
    refine Same.bind (Same.branch rfl) fun _ _ _ => ?_
    exact same_blind hc (by simp [scGetB32_len, hl])
      (fun l => Model.genBlindFe (Model.feSetB32Mod l)) (fun l => Model.genBlindFe (Model.feSetB32Mod l))
      (fun l => Model.genBlindScalar (Model.scSetB32 l).1)
      (fun l => Model.genBlindScalar (Model.scSetB32 l).1)

theorem same_constTableGetLoop (pre pre' : List (Ge Fp)) (i i' m : Nat) :
    Same (fun _ _ => True) (constTableGetLoop pre i m) (constTableGetLoop pre' i' m) := by
  induction m with
  | zero => exact Same.bind (Same.access rfl) fun _ _ _ => Same.pure trivial
  | succ m ih => exact Same.bind ih fun _ _ _ => Same.bind (Same.access rfl) fun _ _ _ => Same.pure trivial

theorem same_constTableGetGe (pre pre' : List (Ge Fp)) (k k' : Nat) :
    Same (fun _ _ => True) (constTableGetGe pre k) (constTableGetGe pre' k') :=
  Same.bind (same_constTableGetLoop _ _ _ _ _) fun _ _ _ => Same.pure trivial

theorem same_scGetBitsVar (a b : Fn) (o c : Nat) :
    Same (fun _ _ => True) (scGetBitsVar a o c) (scGetBitsVar b o c) :=
  Same.bind (Same.branch rfl) fun _ _ _ => Same.bind (Same.access rfl) fun _ _ _ => Same.pure trivial

theorem same_constLoop (p q p' q' : List (Ge Fp)) (v1 v2 v1' v2' : Fn) (g : Nat) : ∀ {r r' : Gej Fp},
    Same (fun _ _ => True) (constLoop p q v1 v2 g r) (constLoop p' q' v1' v2' g r') := by
  induction g with
  | zero => intros; exact Same.pure trivial
  | succ g ih =>
    intro r r'
    refine Same.bind (same_scGetBitsVar _ _ _ _) fun _ _ _ => Same.bind (same_scGetBitsVar _ _ _ _)
      fun _ _ _ => Same.bind (same_constTableGetGe _ _ _ _) fun _ _ _ =>
      Same.bind (Same.branch rfl) fun a b hab => ?_
    exact Same.bind (same_constTableGetGe _ _ _ _) fun _ _ _ => ih

/-- What `secp256k1_ecmult_const` reveals depends on the point only. -/
theorem same_ecmultConst (a : Ge Fp) (q q' : Fn) :
    Same (fun _ _ => True) (ecmultConst a q) (ecmultConst a q') := by
  unfold ecmultConst
  refine Same.bind (Same.branch rfl) fun x y hxy => Same.ite hxy (fun _ => Same.pure trivial) fun _ => ?_
  exact Same.bind (Same.vartime rfl rfl) fun _ _ _ =>
    Same.bind (same_constLoop _ _ _ _ _ _ _ _ _) fun _ _ _ => Same.pure trivial

/-- What `secp256k1_ecmult_const_xonly` reveals depends on the coordinate only. -/
theorem same_ecmultConstXonly (n : Fp) (d : Option Fp) (q q' : Fn) (k : Bool) :
    Same (fun _ _ => True) (ecmultConstXonly n d q k) (ecmultConstXonly n d q' k) := by
  unfold ecmultConstXonly
  refine Same.bind (Same.branch rfl) fun _ _ _ => ?_
  refine Same.bind (R := fun x y => x = y) ⟨rfl, rfl⟩ fun ok ok' hok => ?_
  subst hok
  refine Same.bind (Same.branch rfl) fun x y hxy => Same.ite hxy (fun _ => Same.pure trivial) fun _ => ?_
  exact Same.bind (same_ecmultConst _ _ _) fun _ _ _ => Same.bind (Same.branch rfl) fun _ _ _ =>
    Same.pure trivial

end Secp.Leak
