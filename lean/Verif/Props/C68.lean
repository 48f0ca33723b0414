import Verif.Proof.ComputeTableOk
import Verif.Proof.EcmultGen
import Verif.Props.C42
import Verif.Props.C43
import Verif.Props.C46
import Verif.Props.C67

/-!
# C68: scalar multiplication on machine words

The three multiplications — `secp256k1_ecmult` (and the multi-point routine below it),
`secp256k1_ecmult_const` and `secp256k1_ecmult_gen` — run on the limbs of either field implementation
with their machine arithmetic: no limb overflows on the way, and the result is the multiple in the
group.  Names ending in `_32` are about `field_10x26.h`, the others about `field_5x52.h`.  The static
tables are read through `secp256k1_fe_from_storage`.
-/

namespace Secp
open Model FeOps

section
variable [Fe5.LimbInv]

/-- `secp256k1_ecmult(r, a, na, ng)` on 52-bit limbs. -/
theorem C68_ecmult {a : Gej Fe5} {P : Pt} (ha : GejOk a P) (na ng : Fn) :
    GejOk (ecmult a na (some ng)) (na.val • P + ng.val • G) :=
  (ecmult_limb preG_stored preG128_stored ha.limb na (some ng)).ok (C42_ecmult ha.2.2.2 na ng)

/-- `secp256k1_ecmult(r, a, na, NULL)` on 52-bit limbs. -/
theorem C68_ecmult_no_g {a : Gej Fe5} {P : Pt} (ha : GejOk a P) (na : Fn) :
    GejOk (ecmult a na none) (na.val • P) :=
  (ecmult_limb preG_stored preG128_stored ha.limb na none).ok (C42_ecmult_no_g ha.2.2.2 na)

/-- `secp256k1_ecmult_strauss_wnaf` on 52-bit limbs, for any list of points and scalars. -/
theorem C68_strauss (pts : List (Gej Fe5 × Fn × Pt)) (h : ∀ t ∈ pts, GejOk t.1 t.2.2) (ng : Fn) :
    GejOk (strauss (pts.map fun t => (t.1, t.2.1)) (some ng))
      ((pts.map fun t => t.2.1.val • t.2.2).sum + ng.val • G) := by
  let val : Gej Fe5 → Gej Fp := fun a => ⟨(a.x.nat : Fp), (a.y.nat : Fp), (a.z.nat : Fp), a.infinity⟩
  have h1 : List.Forall₂ (fun (q : Gej Fe5 × Fn) (Q : Gej Fp × Fn) => GejLimb q.1 Q.1 ∧ q.2 = Q.2)
      (pts.map fun t => (t.1, t.2.1)) ((pts.map fun t => (val t.1, t.2)).map fun t => (t.1, t.2.1)) := by
    clear ng
    induction pts with
    | nil => exact .nil
    | cons t l ih => exact .cons ⟨(h t (by simp)).limb, rfl⟩ (ih fun u hu => h u (by simp [hu]))
  have h2 := C42_strauss (pts.map fun t => (val t.1, t.2)) (by
    intro t ht
    obtain ⟨u, hu, rfl⟩ := List.mem_map.1 ht
    exact (h u hu).2.2.2) ng
  have e : ((pts.map fun t => (val t.1, t.2)).map fun t => t.2.1.val • t.2.2) =
      pts.map fun t => t.2.1.val • t.2.2 := by rw [List.map_map]; rfl
  rw [e] at h2
  exact (strauss_limb preG_stored preG128_stored h1 (some ng)).ok h2

/-- `secp256k1_ecmult_const` on 52-bit limbs. -/
theorem C68_ecmult_const {a : Ge Fe5} {P : Pt} (ha : GeOk a P) (q : Fn) :
    GejOk (ecmultConst a q) (q.val • P) :=
  (ecmultConst_limb ha.limb q).ok (C43_ecmult_const ha.2.2 q)

end

section
variable [Fe10.LimbInv]

/-- `secp256k1_ecmult(r, a, na, ng)` on 26-bit limbs. -/
theorem C68_ecmult_32 {a : Gej Fe10} {P : Pt} (ha : GejOk32 a P) (na ng : Fn) :
    GejOk32 (ecmult a na (some ng)) (na.val • P + ng.val • G) :=
  (ecmult_limb preG_stored preG128_stored ha.limb na (some ng)).ok32 (C42_ecmult ha.2.2.2 na ng)

/-- `secp256k1_ecmult(r, a, na, NULL)` on 26-bit limbs. -/
theorem C68_ecmult_no_g_32 {a : Gej Fe10} {P : Pt} (ha : GejOk32 a P) (na : Fn) :
    GejOk32 (ecmult a na none) (na.val • P) :=
  (ecmult_limb preG_stored preG128_stored ha.limb na none).ok32 (C42_ecmult_no_g ha.2.2.2 na)

/-- `secp256k1_ecmult_strauss_wnaf` on 26-bit limbs, for any list of points and scalars. -/
theorem C68_strauss_32 (pts : List (Gej Fe10 × Fn × Pt)) (h : ∀ t ∈ pts, GejOk32 t.1 t.2.2) (ng : Fn) :
    GejOk32 (strauss (pts.map fun t => (t.1, t.2.1)) (some ng))
      ((pts.map fun t => t.2.1.val • t.2.2).sum + ng.val • G) := by
  let val : Gej Fe10 → Gej Fp := fun a => ⟨(a.x.nat : Fp), (a.y.nat : Fp), (a.z.nat : Fp), a.infinity⟩
  have h1 : List.Forall₂ (fun (q : Gej Fe10 × Fn) (Q : Gej Fp × Fn) => GejLimb q.1 Q.1 ∧ q.2 = Q.2)
      (pts.map fun t => (t.1, t.2.1)) ((pts.map fun t => (val t.1, t.2)).map fun t => (t.1, t.2.1)) := by
    clear ng
    induction pts with
    | nil => exact .nil
    | cons t l ih => exact .cons ⟨(h t (by simp)).limb, rfl⟩ (ih fun u hu => h u (by simp [hu]))
  have h2 := C42_strauss (pts.map fun t => (val t.1, t.2)) (by
    intro t ht
    obtain ⟨u, hu, rfl⟩ := List.mem_map.1 ht
    exact (h u hu).2.2.2) ng
  have e : ((pts.map fun t => (val t.1, t.2)).map fun t => t.2.1.val • t.2.2) =
      pts.map fun t => t.2.1.val • t.2.2 := by rw [List.map_map]; rfl
  rw [e] at h2
  exact (strauss_limb preG_stored preG128_stored h1 (some ng)).ok32 h2

/-- `secp256k1_ecmult_const` on 26-bit limbs. -/
theorem C68_ecmult_const_32 {a : Ge Fe10} {P : Pt} (ha : GeOk32 a P) (q : Fn) :
    GejOk32 (ecmultConst a q) (q.val • P) :=
  (ecmultConst_limb ha.limb q).ok32 (C43_ecmult_const ha.2.2 q)

end

/-! ### The generator -/

/-- The generator contexts a program can have, with the comb table of any build:
the one after the reset (ecmult_gen_impl.h:297-303), and those after any number of blindings with a
non-zero factor of magnitude 1 and a non-zero scalar (ecmult_gen_impl.h:318-331 replaces zeros). -/
inductive GenBuilt [Fe5.LimbInv] : GenCtxOf Fe5 → Prop
  | reset (c : GenCtxOf Fe5) (hc : c.cfg.Build) : GenBuilt (genBlindReset c)
  | blind {c : GenCtxOf Fe5} (h : GenBuilt c) {f : Fe5} (hf : f.Mag 1) (h0 : (f.nat : Fp) ≠ 0) {b : Fn}
      (hb : b ≠ 0) : GenBuilt (genBlindApply c f b)

/-- The same for 26-bit limbs. -/
inductive GenBuilt32 [Fe10.LimbInv] : GenCtxOf Fe10 → Prop
  | reset (c : GenCtxOf Fe10) (hc : c.cfg.Build) : GenBuilt32 (genBlindReset c)
  | blind {c : GenCtxOf Fe10} (h : GenBuilt32 c) {f : Fe10} (hf : f.Mag 1) (h0 : (f.nat : Fp) ≠ 0) {b : Fn}
      (hb : b ≠ 0) : GenBuilt32 (genBlindApply c f b)

theorem comb_valid_stored {c : CombCfg} (h : c.Build) :
    CombOk c ∧ CombStored c := by
  exact ⟨h.valid, h.stored⟩

/-- What the blinding preserves, for contexts by value. -/
structure GenValOk (C : GenCtx) : Prop where
  ok : GenCtxOk { C with built := true }
  stored : CombStored C.cfg

theorem GenValOk.rep {C : GenCtx} (h : GenValOk C) (k : Fn) : GejRep 7 (ecmultGen C k) (k.val • G) := by
  obtain ⟨b, hb, hg, hs⟩ := h.ok.offset
  rw [val_smul]
  exact ecmultGen_rep' h.ok.cfg h.ok.blind hb hg hs k

theorem GenValOk.reset {C : GenCtx} (hc : CombOk C.cfg) (hs : CombStored C.cfg) : GenValOk (genBlindReset C) := by
  refine ⟨?_, hs⟩
  have := genBlindReset_ok (ctx := { C with built := true }) hc rfl
  unfold genBlindReset at this ⊢
  exact this

theorem GenValOk.apply {C : GenCtx} (h : GenValOk C) {f : Fp} (hf : f ≠ 0) {b : Fn} (hb : b ≠ 0) :
    GenValOk (genBlindApply C f b) := by
  refine ⟨?_, h.stored⟩
  have := genBlindApply_ok h.ok hf hb
  have e : ecmultGen { { C with built := true } with projBlind := f } b =
      ecmultGen { C with projBlind := f } b := rfl
  unfold genBlindApply at this ⊢
  dsimp only at this ⊢
  exact this

/-- `secp256k1_ecmult_gen` on 52-bit limbs, with the inversion of `modinv64_impl.h` used by the blinding. -/
theorem C68_ecmult_gen {c : GenCtxOf Fe5} (h : @GenBuilt safegcdInv c) (k : Fn) :
    GejOk (@ecmultGen _ (@Fe5.instFeOpsFe5 safegcdInv) c k) (k.val • G) := by
  let : Fe5.LimbInv := safegcdInv
  have hi : LimbInvOk Fe5 := safegcdInv_ok
  have key : ∃ C : GenCtx, GenCtxLimb c C ∧ GenValOk C := by
    induction h with
    | reset c hc =>
      obtain ⟨h1, h2⟩ := comb_valid_stored hc
      refine ⟨genBlindReset ⟨c.cfg, c.built, 0, geInfinity, 0⟩, genBlindReset_limb rfl rfl,
        GenValOk.reset h1 h2⟩
    | blind h hf h0 hb ih =>
      obtain ⟨C, hC, hv⟩ := ih
      exact ⟨_, genBlindApply_limb hi hC hv.stored ⟨hf, rfl⟩ _, hv.apply h0 hb⟩
  obtain ⟨C, hC, hv⟩ := key
  exact (ecmultGen_limb hC hv.stored k).ok (hv.rep k)

/-- `secp256k1_ecmult_gen` on 26-bit limbs, with the inversion of `modinv32_impl.h` used by the blinding. -/
theorem C68_ecmult_gen_32 {c : GenCtxOf Fe10} (h : @GenBuilt32 safegcdInv32 c) (k : Fn) :
    GejOk32 (@ecmultGen _ (@Fe10.instFeOpsFe10 safegcdInv32) c k) (k.val • G) := by
  let : Fe10.LimbInv := safegcdInv32
  have hi : LimbInvOk Fe10 := safegcdInv32_ok
  have key : ∃ C : GenCtx, GenCtxLimb c C ∧ GenValOk C := by
    induction h with
    | reset c hc =>
      obtain ⟨h1, h2⟩ := comb_valid_stored hc
      refine ⟨genBlindReset ⟨c.cfg, c.built, 0, geInfinity, 0⟩, genBlindReset_limb rfl rfl,
        GenValOk.reset h1 h2⟩
    | blind h hf h0 hb ih =>
      obtain ⟨C, hC, hv⟩ := ih
      exact ⟨_, genBlindApply_limb hi hC hv.stored ⟨hf, rfl⟩ _, hv.apply h0 hb⟩
  obtain ⟨C, hC, hv⟩ := key
  exact (ecmultGen_limb hC hv.stored k).ok32 (hv.rep k)

/-! ### Examples -/

/-- `5·G + 7·G` on limbs of both kinds. -/
example [Fe5.LimbInv] [Fe10.LimbInv] :
    GejOk (ecmult (gejSetGe ⟨limbsOf gx, limbsOf gy, false⟩) 5 (some 7)) (12 • G) ∧
    GejOk32 (ecmult (gejSetGe ⟨limbsOf32 gx, limbsOf32 gy, false⟩) 5 (some 7)) (12 • G) := by
  have h := C68_ecmult (C58_set_ge limbG_ok) 5 7
  have h' := C68_ecmult_32 (C67_set_ge limbG32_ok) 5 7
  have e5 : (5 : Fn).val = 5 := by decide +kernel
  have e7 : (7 : Fn).val = 7 := by decide +kernel
  rw [e5, e7, ← add_smul] at h h'
  exact ⟨h, h'⟩

/-- A generator context blinded twice. -/
example : @GenBuilt safegcdInv (@genBlindApply _ (@Fe5.instFeOpsFe5 safegcdInv)
    (@genBlindApply _ (@Fe5.instFeOpsFe5 safegcdInv)
      (@genBlindReset _ (@Fe5.instFeOpsFe5 safegcdInv) ⟨comb86, true, 0, ⟨limbsOf 0, limbsOf 0, false⟩, limbsOf 0⟩)
      (limbsOf 3) 4) (limbsOf 5) 6) := by
  let : Fe5.LimbInv := safegcdInv
  have m3 := limbsOf_rep (x := 3) (by norm_num)
  have m5 := limbsOf_rep (x := 5) (by norm_num)
  have n3 : ((3 : ℕ) : Fp) ≠ 0 := by decide +kernel
  have n5 : ((5 : ℕ) : Fp) ≠ 0 := by decide +kernel
  exact .blind (.blind (.reset _ (.inr (.inr (.inl rfl)))) m3.mag (by rw [m3.val]; exact n3) (by decide +kernel))
    m5.mag (by rw [m5.val]; exact n5) (by decide +kernel)

end Secp
