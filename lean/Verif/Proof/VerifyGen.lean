import Verif.Proof.VerifyMul
import Verif.Proof.ComputeTableOk

/-!
# The checks of a `VERIFY` build hold in the multiplication of the generator
-/

namespace Secp.Model.Verify
open Secp FeOps LimbRep

variable {α : Type} [FeOps α] [FeMem α] [LimbRep α] [FeCheck α] [Bounds α] [VerifyRep α] [Value α] [VerifyMul α]
variable {a b : Gej (FeV α)} {c d : Ge (FeV α)} {x y z : FeV α} {f g h : α} {m k l : ℕ} {i : Bool}
variable {v : GenCtxOf (FeV α)} {ctx : GenCtxOf α}

/-- All entries of the comb table are pairs of field elements. -/
def CombCanonical (c : CombCfg) : Prop := ∀ b i, Canonical (c.table b i)

theorem genLookup_canonical {c : CombCfg} (hc : CombCanonical c) (block : ℕ) (abs : UInt32) {adds : ℕ × ℕ}
    (h : Canonical adds) : Canonical (genLookup c block abs adds) := by
  unfold genLookup
  generalize List.range c.points = l
  induction l generalizing adds with
  | nil => exact h
  | cons i l ih =>
    rw [List.foldl_cons]
    refine ih ?_
    split_ifs
    · exact hc _ _
    · exact h

/-- The context with the checks is the context without them, and the conditions that the multiplication relies on
hold: the projective factor is not zero, the offset is not the point at infinity. -/
structure GenIs (v : GenCtxOf (FeV α)) (ctx : GenCtxOf α) : Prop where
  cfg : v.cfg = ctx.cfg
  built : v.built = ctx.built
  scalarOffset : v.scalarOffset = ctx.scalarOffset
  geOffset : GeIs v.geOffset ctx.geOffset
  projBlind : FeIs v.projBlind ctx.projBlind 1

structure GenUsable (ctx : GenCtxOf α) : Prop where
  teeth : ctx.cfg.teeth ≤ 8
  comb : CombCanonical ctx.cfg
  blind : normalizesToZero ctx.projBlind = false
  offset : ctx.geOffset.infinity = false

/-- The local variables. -/
structure GenStIs (s : GenStateOf (FeV α)) (S : GenStateOf α) : Prop where
  r : GejIs s.r S.r
  adds : s.adds = S.adds
  canonical : Canonical S.adds
  first : s.first = S.first
  bitPos : s.bitPos = S.bitPos

theorem genAddV_ok (hv : GenIs v ctx) (hu : GenUsable ctx) (first : Bool) (ha : GejTracked a) (hc : GeTracked c)
    (hi : c.infinity = false) : Runs (genAddV v first a c) (GejIs ·
      (if first then gejRescale (gejSetGe (geErase c)) ctx.projBlind else gejAddGe (gejErase a) (geErase c))) := by
  unfold genAddV
  cases first
  · exact gejAddGeV_ok ha hc hi
  · rw [if_pos rfl, if_pos rfl]
    refine (gejSetGeV_ok hc).bind fun r hr => ?_
    have := gejRescaleV_ok hr.tr hv.projBlind hu.blind
    rwa [hr.eq] at this

theorem genBlockV_ok (hv : GenIs v ctx) (hu : GenUsable ctx) (recoded : List UInt32) {s : GenStateOf (FeV α)}
    {S : GenStateOf α} (hs : GenStIs s S) (block : ℕ) :
    Runs (genBlockV v recoded s block) (GenStIs · (genBlock ctx recoded S block)) := by
  unfold genBlockV genBlock
  dsimp only
  rw [hv.cfg, hs.adds, hs.bitPos, hs.first]
  generalize genGather recoded ctx.cfg.spacing ctx.cfg.teeth 0 0 S.bitPos = G
  have hsign : ((G.1 >>> UInt32.ofNat (ctx.cfg.teeth - 1)) &&& 1 == 0 ||
      (G.1 >>> UInt32.ofNat (ctx.cfg.teeth - 1)) &&& 1 == 1) = true := by
    generalize G.1 >>> UInt32.ofNat (ctx.cfg.teeth - 1) = w
    rw [Bool.or_eq_true, beq_iff_eq, beq_iff_eq, ← UInt32.toNat_inj, ← UInt32.toNat_inj, UInt32.toNat_and]
    have := Nat.and_one_is_mod w.toNat
    show w.toNat &&& 1 = 0 ∨ w.toNat &&& 1 = 1
    omega
  generalize (G.1 >>> UInt32.ofNat (ctx.cfg.teeth - 1)) &&& 1 = sign at *
  have habs : decide (((G.1 ^^^ (-sign)) &&& UInt32.ofNat (ctx.cfg.points - 1)).toNat < ctx.cfg.points) = true := by
    generalize G.1 ^^^ (-sign) = w
    rw [decide_eq_true_eq, UInt32.toNat_and]
    have hp : 0 < ctx.cfg.points := by
      unfold CombCfg.points; rw [Nat.one_shiftLeft]; positivity
    have hl : (UInt32.ofNat (ctx.cfg.points - 1)).toNat ≤ ctx.cfg.points - 1 := by
      rw [UInt32.toNat_ofNat']
      exact Nat.mod_le _ _
    have := Nat.and_le_right (n := w.toNat) (m := (UInt32.ofNat (ctx.cfg.points - 1)).toNat)
    omega
  generalize (G.1 ^^^ (-sign)) &&& UInt32.ofNat (ctx.cfg.points - 1) = abs at *
  refine Runs.check hsign (Runs.check habs ?_)
  have hcan := genLookup_canonical hu.comb block abs hs.canonical
  generalize genLookup ctx.cfg block abs S.adds = ad at *
  refine (geFromStorageV_ok hcan).bind fun t ht => ?_
  refine (feNegate_ok ht.1.py 1).bind fun ny hn => (feCmov_ok ht.1.py hn (sign != 0)).bind fun y hy => ?_
  have htr : GeTracked { t with y := y } := ⟨ht.1.ge.tr.x, hy.tr, ht.1.ge.tr.xm, hy.le.trans (by omega)⟩
  have g := genAddV_ok hv hu S.first hs.r.tr htr ht.2
  have e : geErase { t with y := y } = { (geFromStorage ad : Ge α) with
      y := cmov (geFromStorage ad : Ge α).y (negate (geFromStorage ad : Ge α).y 1) (sign != 0) } := by
    rw [← hy.fe, ← ht.1.ge.eq]; rfl
  rw [e, hs.r.eq] at g
  refine g.bind fun r hr => Runs.some ?_
  cases hf : S.first
  · rw [hf] at hr
    exact ⟨hr, rfl, hcan, rfl, rfl⟩
  · rw [hf] at hr
    exact ⟨hr, rfl, hcan, rfl, rfl⟩

theorem genBlocksV_ok (hv : GenIs v ctx) (hu : GenUsable ctx) (recoded : List UInt32) : ∀ (l : List ℕ)
    {s : GenStateOf (FeV α)} {S : GenStateOf α}, GenStIs s S →
    Runs (l.foldlM (genBlockV v recoded) s) (GenStIs · (l.foldl (genBlock ctx recoded) S))
  | [], _, _, h => Runs.some h
  | i :: l, _, _, h => by
    rw [List.foldlM_cons, List.foldl_cons]
    exact (genBlockV_ok hv hu recoded h i).bind fun _ hr => genBlocksV_ok hv hu recoded l hr

theorem genInnerV_ok (hv : GenIs v ctx) (hu : GenUsable ctx) (recoded : List UInt32) (off : ℕ)
    {s : GenStateOf (FeV α)} {S : GenStateOf α} (hs : GenStIs s S) :
    Runs (genInnerV v recoded off s) (GenStIs · (genInner ctx recoded off S)) := by
  unfold genInnerV genInner
  rw [hv.cfg]
  exact genBlocksV_ok hv hu recoded _ ⟨hs.r, hs.adds, hs.canonical, hs.first, rfl⟩

theorem genOuterV_ok (hv : GenIs v ctx) (hu : GenUsable ctx) (recoded : List UInt32) : ∀ (k : ℕ)
    {s : GenStateOf (FeV α)} {S : GenStateOf α}, GenStIs s S →
    Runs (genOuterV v recoded k s) (GenStIs · (genOuter ctx recoded k S))
  | 0, _, _, h => genInnerV_ok hv hu recoded 0 h
  | k + 1, _, _, h => by
    unfold genOuterV
    refine (genInnerV_ok hv hu recoded (k + 1) h).bind fun t ht => ?_
    have g := gejDoubleV_ok ht.r.tr
    rw [ht.r.eq] at g
    refine g.bind fun r hr => ?_
    exact genOuterV_ok hv hu recoded k (S := genDouble (genInner ctx recoded (k + 1) _))
      ⟨hr, ht.adds, ht.canonical, ht.first, ht.bitPos⟩

theorem zero_ok : FeIs (⟨setInt 0, 0, true⟩ : FeV α) (setInt 0) 0 :=
  ⟨rfl, ⟨by show 0 ≤ 32; decide, VerifyRep.setInt0, fun _ => ⟨by show 0 ≤ 1; decide, VerifyRep.setInt (by decide)⟩⟩, le_rfl⟩

theorem ecmultGenV_ok (hv : GenIs v ctx) (hu : GenUsable ctx) (k : Fn) :
    Runs (ecmultGenV v k) (GejIs · (ecmultGen ctx k)) := by
  unfold ecmultGenV ecmultGen
  dsimp only
  rw [hv.scalarOffset, hv.cfg]
  have z := zero_ok (α := α)
  have c0 : Canonical (0, 0) := ⟨by decide +kernel, by decide +kernel⟩
  refine (genOuterV_ok hv hu (genRecode ctx.cfg (ctx.scalarOffset + k)) (ctx.cfg.spacing - 1)
    (s := ⟨⟨⟨setInt 0, 0, true⟩, ⟨setInt 0, 0, true⟩, ⟨setInt 0, 0, true⟩, false⟩, (0, 0), true, 0⟩)
    (S := ⟨⟨setInt 0, setInt 0, setInt 0, false⟩, (0, 0), true, 0⟩)
    ⟨⟨rfl, z.tr, z.tr, z.tr, by show 0 ≤ 4; decide, by show 0 ≤ 4; decide, by show 0 ≤ 1; decide⟩, rfl,
      c0, rfl, rfl⟩).bind fun st hst => ?_
  have e := hv.geOffset.eq
  have g := gejAddGeV_ok hst.r.tr hv.geOffset.tr (by
    have : (geErase v.geOffset).infinity = false := by rw [e]; exact hu.offset
    exact this)
  rwa [hst.r.eq, e] at g

/-! ## blinding -/

theorem genBlindResetV_ok (hc : v.cfg = ctx.cfg) (hb : v.built = ctx.built)
    (one : (feConst 1 : α) = setInt 1) :
    Runs (genBlindResetV v) (GenIs · (genBlindReset ctx)) := by
  have hx : FeIs (feConstV 0x79BE667EF9DCBBAC55A06295CE870B07029BFCDB2DCE28D959F2815B16F81798 : FeV α) _ 1 :=
    feConst_ok (by decide +kernel)
  have hy : FeIs (feConstV 0x483ADA7726A3C4655DA4FBFC0E1108A8FD17B448A68554199C47D08FFB10D4B8 : FeV α) _ 1 :=
    feConst_ok (by decide +kernel)
  have h1 : FeIs (feConstV 1 : FeV α) _ 1 := feConst_ok (by decide +kernel)
  unfold genBlindResetV genBlindReset
  rw [hc]
  refine (geNegV_ok ⟨hx.tr, hy.tr, by show 1 ≤ 4; decide, by show 1 ≤ 3; decide⟩).bind fun r hr => Runs.some ?_
  generalize (1 + genScalarDiff ctx.cfg) = o
  exact ⟨rfl, hb, rfl, hr, one ▸ h1⟩

theorem genBlindApplyV_ok (hv : GenIs v ctx) (hu : GenUsable ctx) (one : (feConst 1 : α) = setInt 1)
    (hz : FeIs z f 1) (hf : normalizesToZero (genBlindFe f) = false) (b : Fn) :
    Runs (genBlindApplyV v z b) (GenIs · (genBlindApply ctx (genBlindFe f) (genBlindScalar b))) := by
  have h1 : FeIs (feConstV 1 : FeV α) _ 1 := feConst_ok (by decide +kernel)
  rw [one] at h1
  unfold genBlindApplyV
  refine (feNormalizesToZero_ok hz).bind fun t ht => ?_
  subst ht
  refine (feCmov_ok hz h1 (normalizesToZero f)).bind fun w hw => ?_
  have hw' : FeIs w (genBlindFe f) 1 := hw
  generalize genBlindFe f = F at *
  unfold genBlindApply
  dsimp only
  generalize genBlindScalar b = B
  have hv' : GenIs { v with projBlind := w } { ctx with projBlind := F } :=
    ⟨hv.cfg, hv.built, hv.scalarOffset, hv.geOffset, hw'⟩
  have hu' : GenUsable { ctx with projBlind := F } := ⟨hu.teeth, hu.comb, hf, hu.offset⟩
  refine (ecmultGenV_ok hv' hu' B).bind fun gb hgb => ?_
  have g := geSetGejV_ok hgb.tr
  rw [hgb.eq] at g
  refine g.bind fun r hr => Runs.some ?_
  rw [hv.cfg]
  generalize -B + genScalarDiff ctx.cfg = o
  exact ⟨rfl, hv.built, rfl, hr.1, hw'⟩

/-! ## histories -/

/-- The invariant: what the context stands for satisfies the invariant of `GenCtxOk`. -/
def GenReach (ctx : GenCtxOf α) : Prop :=
  CombCanonical ctx.cfg ∧ CombStored ctx.cfg ∧
    ∃ G : GenCtx, GenCtxLimb ctx G ∧ GenCtxOk G

theorem GenReach.usable (h : GenReach ctx) : GenUsable ctx := by
  obtain ⟨hc, -, G, hl, hg⟩ := h
  refine ⟨?_, hc, ?_, ?_⟩
  · have := hg.cfg.teeth_le
    rwa [← hl.cfg] at this
  · rw [hl.projBlind.toZero]
    exact decide_eq_false hg.blind
  · obtain ⟨b, hb, hr, -⟩ := hg.offset
    rw [hl.geOffset.inf]
    by_contra hi
    have := hr.inf_iff.1 (by simpa using hi)
    rcases smul_eq_zero_iff.1 this with h | h
    · exact hb h
    · exact G_ne_zero h

theorem genBlindReset_cfg : (genBlindReset ctx).cfg = ctx.cfg := by
  unfold genBlindReset
  generalize (1 + genScalarDiff ctx.cfg) = o
  rfl

theorem genBlindApply_cfg (f : α) (b : Fn) : (genBlindApply ctx f b).cfg = ctx.cfg := by
  have e : genBlindApply ctx f b = ⟨ctx.cfg, ctx.built, -b + genScalarDiff ctx.cfg,
    geSetGej (ecmultGen { ctx with projBlind := f } b), f⟩ := by
    simp only [genBlindApply]
  have h : ∀ o g, (⟨ctx.cfg, ctx.built, o, g, f⟩ : GenCtxOf α).cfg = ctx.cfg := fun _ _ => rfl
  exact (congrArg GenCtxOf.cfg e).trans (h _ _)

theorem genReach_reset (hc : CombOk ctx.cfg) (hs : CombStored ctx.cfg) (hk : CombCanonical ctx.cfg)
    (hb : ctx.built = true) : GenReach (genBlindReset ctx) := by
  unfold GenReach
  rw [genBlindReset_cfg]
  refine ⟨hk, hs, genBlindReset ⟨ctx.cfg, true, 0, geConstG, 0⟩, genBlindReset_limb ?_ ?_, genBlindReset_ok ?_ ?_⟩
  · dsimp only
  · dsimp only; exact hb
  · exact hc
  · dsimp only

theorem genBlindFe_ne {F : Fp} : genBlindFe F ≠ 0 := by
  unfold genBlindFe
  show (if (normalizesToZero F) = true then (setInt 1 : Fp) else F) ≠ 0
  split_ifs with h
  · rw [show (setInt 1 : Fp) = ((1 : ℕ) : Fp) from rfl, Nat.cast_one]; exact one_ne_zero
  · intro e; exact h (decide_eq_true e)

theorem genBlindScalar_ne {b : Fn} : genBlindScalar b ≠ 0 := by
  unfold genBlindScalar scCmov scIsZero
  by_cases h : b = 0 <;> simp [h]

theorem genReach_apply (h : GenReach ctx) (hz : FeIs z f 1) (b : Fn) :
    GenReach (genBlindApply ctx (genBlindFe f) (genBlindScalar b)) ∧ normalizesToZero (genBlindFe f) = false := by
  obtain ⟨hc, hs, G, hl, hg⟩ := h
  obtain ⟨F, hF⟩ := hz.rep
  have hB := genBlindFe_limb hF
  unfold GenReach
  rw [genBlindApply_cfg]
  refine ⟨⟨hc, hs, genBlindApply G (genBlindFe F) (genBlindScalar b), ?_, ?_⟩, ?_⟩
  · have hs' : CombStored G.cfg := by rw [← hl.cfg]; exact hs
    exact genBlindApply_limb VerifyRep.invOk hl hs' hB (genBlindScalar b)
  · exact genBlindApply_ok hg genBlindFe_ne genBlindScalar_ne
  · rw [hB.toZero]
    exact decide_eq_false genBlindFe_ne

theorem genBlindV_ok (one : (feConst 1 : α) = setInt 1) (hv : GenIs v ctx) (hr : GenReach ctx)
    {e : Option (FeV α × Fn)} (he : ∀ q ∈ e, FeIs q.1 q.1.fe 1) :
    Runs (genBlindV v e) fun r => GenIs r (genBlindOf ctx e) ∧ GenReach (genBlindOf ctx e) := by
  cases e with
  | none =>
    refine (genBlindResetV_ok hv.cfg hv.built one).mono fun r h => ⟨h, ?_⟩
    obtain ⟨hc, hs, G, hl, hg⟩ := hr
    refine genReach_reset ?_ hs hc (hl.built.trans hg.built)
    have := hg.cfg
    rwa [← hl.cfg] at this
  | some q =>
    obtain ⟨h1, h2⟩ := genReach_apply hr (he q rfl) q.2
    exact (genBlindApplyV_ok hv hr.usable one (he q rfl) h2 q.2).mono fun r h => ⟨h, h1⟩

theorem genBlindsV_ok (one : (feConst 1 : α) = setInt 1) : ∀ (l : List (Option (FeV α × Fn)))
    {v : GenCtxOf (FeV α)} {ctx : GenCtxOf α}, GenIs v ctx → GenReach ctx → (∀ e ∈ l, ∀ q ∈ e, FeIs q.1 q.1.fe 1) →
    Runs (l.foldlM genBlindV v) fun r => GenIs r (l.foldl genBlindOf ctx) ∧ GenReach (l.foldl genBlindOf ctx)
  | [], _, _, hv, hr, _ => Runs.some ⟨hv, hr⟩
  | e :: l, _, _, hv, hr, he => by
    rw [List.foldlM_cons, List.foldl_cons]
    exact (genBlindV_ok one hv hr (he e (List.mem_cons_self ..))).bind fun r h =>
      genBlindsV_ok one l h.1 h.2 fun e' h' => he e' (List.mem_cons_of_mem _ h')

theorem genBlindReset_eq {c c' : GenCtxOf α} (h : c.cfg = c'.cfg) (hb : c'.built = true) :
    { genBlindReset c with built := true } = genBlindReset c' := by
  unfold genBlindReset
  rw [h]
  generalize (1 + genScalarDiff c'.cfg) = o
  dsimp only
  rw [hb]

theorem genHistoryV_ok (one : (feConst 1 : α) = setInt 1) (hc : CombOk v.cfg) (hs : CombStored v.cfg)
    (hk : CombCanonical v.cfg) {calls : List (Option (FeV α × Fn))} (h : ∀ e ∈ calls, ∀ q ∈ e, FeIs q.1 q.1.fe 1) :
    Runs (genHistoryV v calls) fun r => GenIs r (genHistoryOf v.cfg calls) ∧ GenReach (genHistoryOf v.cfg calls) := by
  unfold genHistoryV genHistoryOf
  refine (genBlindResetV_ok (ctx := ⟨v.cfg, v.built, 0, geConstG, setInt 1⟩) rfl rfl one).bind fun r hr => ?_
  have hq := genBlindReset_eq (c := (⟨v.cfg, v.built, 0, geConstG, setInt 1⟩ : GenCtxOf α))
    (c' := ⟨v.cfg, true, 0, geConstG, setInt 1⟩) rfl rfl
  refine genBlindsV_ok one calls ?_ (genReach_reset hc hs hk rfl) h
  rw [← hq]
  exact ⟨hr.cfg, rfl, hr.scalarOffset, hr.geOffset, hr.projBlind⟩

/-! ## the tables of a build -/

theorem combOf_canonical {B T : ℕ} : CombCanonical (combOf B T) := by
  intro b i
  have key : ∀ q : ℕ × ℕ, q ∈ ecmultGenComputeTable geConstG B T (1 + (256 - 1) / (B * T)) → Canonical q := by
    intro q hq
    rw [ecmultGenComputeTable] at hq
    obtain ⟨a, _, rfl⟩ := List.mem_map.1 hq
    exact ⟨ZMod.val_lt _, ZMod.val_lt _⟩
  have h0 : Canonical (0, 0) := ⟨by decide +kernel, by decide +kernel⟩
  have hd : ∀ k, Canonical ((ecmultGenComputeTable geConstG B T (1 + (256 - 1) / (B * T))).getD k (0, 0)) := by
    intro k
    generalize ecmultGenComputeTable geConstG B T (1 + (256 - 1) / (B * T)) = tab at key ⊢
    rw [List.getD_eq_getElem?_getD]
    cases e : tab[k]? with
    | none => exact h0
    | some q => exact key q (List.mem_of_getElem? e)
  have e : (combOf B T).table b i = ((genTableRows B T).getD b []).getD i (0, 0) := by
    rw [CombCfg.table, combOf]
  rw [e]
  rw [genTableRows_eq, tableRows]
  generalize ecmultGenComputeTable geConstG B T (1 + (256 - 1) / (B * T)) = tab at hd ⊢
  rw [List.getD_eq_getElem?_getD, List.getD_eq_getElem?_getD, List.getElem?_map]
  cases (List.range B)[b]? with
  | none => simpa using h0
  | some outer =>
    rw [Option.map_some, Option.getD_some, List.getElem?_map]
    cases (List.range (2 ^ (T - 1)))[i]? with
    | none => exact h0
    | some inner => exact hd _

theorem canonical_of_eq {c c' : CombCfg} (e : c = c') (h : CombCanonical c') : CombCanonical c := e ▸ h

theorem build_canonical {c : CombCfg} (h : c.Build) : CombCanonical c := by
  obtain rfl | rfl | rfl | ⟨-, he⟩ := h
  · exact canonical_of_eq comb2_computed combOf_canonical
  · exact canonical_of_eq comb22_computed combOf_canonical
  · exact canonical_of_eq comb86_computed combOf_canonical
  · exact canonical_of_eq he combOf_canonical

end Secp.Model.Verify
