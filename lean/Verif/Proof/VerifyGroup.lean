import Verif.Proof.Verify
import Verif.Proof.Sqrt
import Verif.Model.Limb.Ellswift

/-!
# The checks of a `VERIFY` build hold in the point functions
-/

namespace Secp.Model.Verify
open Secp FeOps LimbRep

section
variable {α : Type} [Bounds α]

/-- `r` is the point `g` and within its magnitudes. -/
structure GejIs (r : Gej (FeV α)) (g : Gej α) : Prop where
  eq : gejErase r = g
  tr : GejTracked r

/-- `r` is the point `g` and within its magnitudes. -/
structure GeIs (r : Ge (FeV α)) (g : Ge α) : Prop where
  eq : geErase r = g
  tr : GeTracked r
end

variable {α : Type} [FeOps α] [FeMem α] [LimbRep α] [FeCheck α] [Bounds α] [VerifyRep α]
variable {a b : Gej (FeV α)} {c d : Ge (FeV α)} {x y z : FeV α} {f g h : α} {m k l : ℕ} {i : Bool}

/-! ## the field functions with semantic checks -/

theorem sqrt_neg (v : Fp) (h : FeOps.equal (FeOps.sqr (FeOps.sqrt v).1) v = false) :
    -(FeOps.sqr (FeOps.sqrt v).1) = v := by
  have h2 : ¬ (FeOps.sqrt v).1 ^ 2 = v := by
    intro e
    have : FeOps.equal (FeOps.sqr (FeOps.sqrt v).1) v = true := by
      simp only [FeOps.equal, FeOps.normalizesToZero, FeOps.add, FeOps.negate, FeOps.sqr, decide_eq_true_eq]
      rw [neg_add_eq_zero, ← sq, e]
    rw [h] at this; cases this
  show -((FeOps.sqrt v).1 * (FeOps.sqrt v).1) = v
  rw [← sq]
  rw [sqrt_val, ← pow_mul] at h2 ⊢
  have hp := p_mod_four
  have e : (p + 1) / 4 * 2 = p / 2 + 1 := by omega
  rw [e, pow_succ] at h2 ⊢
  by_cases hv : v = 0
  · subst hv; simp
  · rcases ZMod.pow_div_two_eq_neg_one_or_one p hv with h1 | h1
    · rw [h1, one_mul] at h2; exact absurd rfl h2
    · rw [h1]; ring

theorem feSqrt_ok (hx : FeIs x f m) (hm : m ≤ 8 := by omega) :
    Runs (feSqrt x) fun r => FeIs r.1 (sqrt f).1 1 ∧ r.2 = (sqrt f).2 := by
  unfold feSqrt
  refine Runs.check hx.tr.verify (Runs.check (atMost_ok hx hm (by omega)) ?_)
  refine (feSqr_ok hx).bind fun x2 h2 => (feMul_ok h2 hx).bind fun x2 h2 => ?_
  refine (feSqr_ok h2).bind fun x3 h3 => (feMul_ok h3 hx).bind fun x3 h3 => ?_
  refine (feSqrN_ok h3 3).bind fun x6 h6 => (feMul_ok h6 h3).bind fun x6 h6 => ?_
  refine (feSqrN_ok h6 3).bind fun x9 h9 => (feMul_ok h9 h3).bind fun x9 h9 => ?_
  refine (feSqrN_ok h9 2).bind fun x11 h11 => (feMul_ok h11 h2).bind fun x11 h11 => ?_
  refine (feSqrN_ok h11 11).bind fun x22 h22 => (feMul_ok h22 h11).bind fun x22 h22 => ?_
  refine (feSqrN_ok h22 22).bind fun x44 h44 => (feMul_ok h44 h22).bind fun x44 h44 => ?_
  refine (feSqrN_ok h44 44).bind fun x88 h88 => (feMul_ok h88 h44).bind fun x88 h88 => ?_
  refine (feSqrN_ok h88 88).bind fun x176 h176 => (feMul_ok h176 h88).bind fun x176 h176 => ?_
  refine (feSqrN_ok h176 44).bind fun x220 h220 => (feMul_ok h220 h44).bind fun x220 h220 => ?_
  refine (feSqrN_ok h220 3).bind fun x223 h223 => (feMul_ok h223 h3).bind fun x223 h223 => ?_
  refine (feSqrN_ok h223 23).bind fun t ht => (feMul_ok ht h22).bind fun t ht => ?_
  refine (feSqrN_ok ht 6).bind fun t ht => (feMul_ok ht h2).bind fun t ht => ?_
  refine (feSqr_ok ht).bind fun t ht => (feSqr_ok ht).bind fun r hr => ?_
  have hr : FeIs r (sqrt f).1 1 := hr
  refine (feSqr_ok hr).bind fun t ht => (feEqual_ok ht hx).bind fun e he => ?_
  have he : e = (sqrt f).2 := he
  cases hb : e
  · rw [if_neg (by decide)]
    obtain ⟨v, hv⟩ := hx.rep
    obtain ⟨hv1, hv2⟩ := hv.sqrt
    refine (feNegate_ok ht 1).bind fun t hn => (feNormalize_ok hn).bind fun t hz =>
      (feEqual_ok hz.1 hx).bind fun e' he' => Runs.check ?_ (Runs.some ⟨hr, ?_⟩)
    · rw [he', Rep.equal ((hv1.sqr'.negate' 1).normalize') hv]
      have : FeOps.equal (FeOps.sqr (FeOps.sqrt v).1) v = false := by
        show (FeOps.sqrt v).2 = false
        rw [← hv2, ← he, hb]
      have := sqrt_neg v this
      show FeOps.equal (-(FeOps.sqr (FeOps.sqrt v).1)) v = true
      rw [this]
      simp only [FeOps.equal, FeOps.normalizesToZero, FeOps.add, FeOps.negate, decide_eq_true_eq]
      rw [neg_add_cancel]
    · rw [← he, hb]
  · rw [if_pos rfl]
    exact Runs.some ⟨hr, by rw [← he, hb]⟩

theorem feIsSquareVarV_ok (hx : FeIs x f m) (hm : m ≤ 31 := by omega) :
    Runs (feIsSquareVarV x) (· = FeMem.isSquareVar f) := by
  obtain ⟨v, hv⟩ := hx.rep
  unfold feIsSquareVarV
  rw [hx.fe]
  refine Runs.check hx.tr.verify ((feNormalizeWeak_ok hx).bind fun t ht => (feSqrt_ok ht).bind fun s hs =>
    Runs.check ?_ (Runs.some rfl))
  obtain ⟨-, h2⟩ := Rep.sqrt (hv.weak)
  rw [hs.2, h2, VerifyRep.isSquare (hv.mono hm)]
  show (feIsSquareVar v == (FeOps.sqrt v).2) = true
  rw [beq_iff_eq, Bool.eq_iff_iff, feIsSquareVar_iff, sqrt_snd]

theorem feConst_ok {k : ℕ} (hk : k < p) : FeIs (feConstV k : FeV α) (feConst k) 1 :=
  ⟨rfl, ⟨by show 1 ≤ 32; decide, VerifyRep.normMag (VerifyRep.const hk), fun _ => ⟨le_rfl, VerifyRep.const hk⟩⟩, le_rfl⟩

/-! ## points -/

omit [FeOps α] [FeMem α] [LimbRep α] [FeCheck α] [VerifyRep α] in
theorem GejIs.px (h : GejTracked a) : FeIs a.x a.x.fe 4 := ⟨rfl, h.x, h.xm⟩
omit [FeOps α] [FeMem α] [LimbRep α] [FeCheck α] [VerifyRep α] in
theorem GejIs.py (h : GejTracked a) : FeIs a.y a.y.fe 4 := ⟨rfl, h.y, h.ym⟩
omit [FeOps α] [FeMem α] [LimbRep α] [FeCheck α] [VerifyRep α] in
theorem GejIs.pz (h : GejTracked a) : FeIs a.z a.z.fe 1 := ⟨rfl, h.z, h.zm⟩
omit [FeOps α] [FeMem α] [LimbRep α] [FeCheck α] [VerifyRep α] in
theorem GeIs.px (h : GeTracked c) : FeIs c.x c.x.fe 4 := ⟨rfl, h.x, h.xm⟩
omit [FeOps α] [FeMem α] [LimbRep α] [FeCheck α] [VerifyRep α] in
theorem GeIs.py (h : GeTracked c) : FeIs c.y c.y.fe 3 := ⟨rfl, h.y, h.ym⟩

theorem gejVerify_ok (h : GejTracked a) : gejVerify a = true := by
  unfold gejVerify
  rw [h.x.verify, h.y.verify, h.z.verify, atMost_ok (GejIs.px h) le_rfl (by omega),
    atMost_ok (GejIs.py h) le_rfl (by omega), atMost_ok (GejIs.pz h) le_rfl (by omega)]
  rfl

theorem geVerify_ok (h : GeTracked c) : geVerify c = true := by
  unfold geVerify
  rw [h.x.verify, h.y.verify, atMost_ok (GeIs.px h) le_rfl (by omega), atMost_ok (GeIs.py h) le_rfl (by omega)]
  rfl

theorem retGej_ok (hx : FeIs x f m) (hy : FeIs y g k) (hz : FeIs z h l) (hm : m ≤ 4 := by omega)
    (hk : k ≤ 4 := by omega) (hl : l ≤ 1 := by omega) : Runs (retGej ⟨x, y, z, i⟩) (GejIs · ⟨f, g, h, i⟩) := by
  have ht : GejTracked (⟨x, y, z, i⟩ : Gej (FeV α)) :=
    ⟨hx.tr, hy.tr, hz.tr, hx.le.trans hm, hy.le.trans hk, hz.le.trans hl⟩
  exact Runs.check (gejVerify_ok ht) (Runs.some ⟨by simp only [gejErase, hx.fe, hy.fe, hz.fe], ht⟩)

theorem retGe_ok (hx : FeIs x f m) (hy : FeIs y g k) (hm : m ≤ 4 := by omega)
    (hk : k ≤ 3 := by omega) : Runs (retGe ⟨x, y, i⟩) (GeIs · ⟨f, g, i⟩) := by
  have ht : GeTracked (⟨x, y, i⟩ : Ge (FeV α)) := ⟨hx.tr, hy.tr, hx.le.trans hm, hy.le.trans hk⟩
  exact Runs.check (geVerify_ok ht) (Runs.some ⟨by simp only [geErase, hx.fe, hy.fe], ht⟩)

theorem geSetGejZinvV_ok (ha : GejTracked a) (hz : FeIs z f m) (hi : a.infinity = false) (hm : m ≤ 8 := by omega) :
    Runs (geSetGejZinvV a z) (GeIs · (geSetGejZinv (gejErase a) f)) := by
  unfold geSetGejZinvV
  refine Runs.check (gejVerify_ok ha) (Runs.check hz.tr.verify (Runs.check (by rw [hi]; rfl) ?_))
  refine (feSqr_ok hz).bind fun z2 h2 => (feMul_ok h2 hz).bind fun z3 h3 => ?_
  refine (feMul_ok (GejIs.px ha) h2).bind fun x hx => (feMul_ok (GejIs.py ha) h3).bind fun y hy => ?_
  exact retGe_ok hx hy

theorem geSetGeZinvV_ok (ha : GeTracked c) (hz : FeIs z f m) (hi : c.infinity = false) (hm : m ≤ 8 := by omega) :
    Runs (geSetGeZinvV c z) (GeIs · (geSetGeZinv (geErase c) f)) := by
  unfold geSetGeZinvV
  refine Runs.check (geVerify_ok ha) (Runs.check hz.tr.verify (Runs.check (by rw [hi]; rfl) ?_))
  refine (feSqr_ok hz).bind fun z2 h2 => (feMul_ok h2 hz).bind fun z3 h3 => ?_
  refine (feMul_ok (GeIs.px ha) h2).bind fun x hx => (feMul_ok (GeIs.py ha) h3).bind fun y hy => ?_
  exact retGe_ok hx hy

theorem geSetXYV_ok (hx : FeIs x f m) (hy : FeIs y g k) (hm : m ≤ 4 := by omega) (hk : k ≤ 3 := by omega) :
    Runs (geSetXYV x y) (GeIs · (geSetXY f g)) := by
  unfold geSetXYV
  exact Runs.check hx.tr.verify (Runs.check hy.tr.verify (retGe_ok hx hy))

theorem geNegV_ok (ha : GeTracked c) : Runs (geNegV c) (GeIs · (geNeg (geErase c))) := by
  unfold geNegV
  refine Runs.check (geVerify_ok ha) ?_
  exact (feNormalizeWeak_ok (GeIs.py ha)).bind fun y hy => (feNegate_ok hy 1).bind fun y hy => retGe_ok (GeIs.px ha) hy

theorem gejNegV_ok (ha : GejTracked a) : Runs (gejNegV a) (GejIs · (gejNeg (gejErase a))) := by
  unfold gejNegV
  refine Runs.check (gejVerify_ok ha) ?_
  exact (feNormalizeWeak_ok (GejIs.py ha)).bind fun y hy => (feNegate_ok hy 1).bind fun y hy =>
    retGej_ok (GejIs.px ha) hy (GejIs.pz ha)

theorem gejInfinityV_ok : Runs (gejInfinityV : Option (Gej (FeV α))) (GejIs · gejInfinity) := by
  unfold gejInfinityV
  exact (feSetInt_ok 0).bind fun x hx => (feSetInt_ok 0).bind fun y hy => (feSetInt_ok 0).bind fun z hz =>
    retGej_ok hx hy hz (by decide) (by decide) (by decide)

theorem geInfinityV_ok : Runs (geInfinityV : Option (Ge (FeV α))) (GeIs · geInfinity) := by
  unfold geInfinityV
  exact (feSetInt_ok 0).bind fun x hx => (feSetInt_ok 0).bind fun y hy => retGe_ok hx hy (by decide) (by decide)

theorem one_ok : Runs (feSetInt 1 : Option (FeV α)) (FeIs · (setInt 1) 1) := feSetInt_ok 1

theorem geSetGejV_ok (ha : GejTracked a) :
    Runs (geSetGejV a) fun r => GeIs r.1 (geSetGej (gejErase a)) ∧ GejIs r.2 (gejSetGe (geSetGej (gejErase a))) := by
  unfold geSetGejV
  refine Runs.check (gejVerify_ok ha) ?_
  refine (feInv_ok (GejIs.pz ha)).bind fun az hz => (feSqr_ok hz).bind fun z2 h2 => (feMul_ok hz h2).bind fun z3 h3 => ?_
  refine (feMul_ok (GejIs.px ha) h2).bind fun x hx => (feMul_ok (GejIs.py ha) h3).bind fun y hy => ?_
  refine one_ok.bind fun z hz => (retGej_ok hx hy hz).bind fun a' ha' => (retGe_ok hx hy).bind fun r hr => ?_
  exact Runs.some ⟨hr, ha'⟩

theorem geSetGejVarV_ok (ha : GejTracked a) :
    Runs (geSetGejVarV a) fun r => GeIs r.1 (geSetGejVar (gejErase a)) ∧
      GejIs r.2 (if a.infinity then gejErase a else gejSetGe (geSetGejVar (gejErase a))) := by
  unfold geSetGejVarV geSetGejVar
  refine Runs.check (gejVerify_ok ha) (Runs.check (gejVerify_ok ha) ?_)
  cases hi : a.infinity
  · rw [if_neg (by decide), if_neg (by simp [gejErase, hi])]
    refine (feInvVar_ok (GejIs.pz ha)).bind fun az hz => (feSqr_ok hz).bind fun z2 h2 => (feMul_ok hz h2).bind fun z3 h3 => ?_
    refine (feMul_ok (GejIs.px ha) h2).bind fun x hx => (feMul_ok (GejIs.py ha) h3).bind fun y hy => ?_
    refine one_ok.bind fun z hz => (geSetXYV_ok hx hy).bind fun r hr => (retGej_ok hx hy hz).bind fun a' ha' => ?_
    exact Runs.bind (Runs.check (geVerify_ok hr.tr) (Runs.some hr)) fun r hr => Runs.some ⟨hr, ha'⟩
  · rw [if_pos rfl, if_pos (show (gejErase a).infinity = true from hi)]
    exact geInfinityV_ok.bind fun r hr => Runs.some ⟨hr, rfl, ha⟩

theorem gejSetGeV_ok (ha : GeTracked c) : Runs (gejSetGeV c) (GejIs · (gejSetGe (geErase c))) := by
  unfold gejSetGeV
  exact Runs.check (geVerify_ok ha) (one_ok.bind fun z hz => retGej_ok (GeIs.px ha) (GeIs.py ha) hz)

theorem geIsValidVarV_ok (ha : GeTracked c) : Runs (geIsValidVarV c) (· = geIsValidVar (geErase c)) := by
  unfold geIsValidVarV geIsValidVar
  refine Runs.check (geVerify_ok ha) ?_
  cases hi : c.infinity
  · rw [if_neg (by decide), if_neg (by simp [geErase, hi])]
    refine (feSqr_ok (GeIs.py ha)).bind fun y2 h2 => (feSqr_ok (GeIs.px ha)).bind fun x3 h3 => ?_
    refine (feMul_ok h3 (GeIs.px ha)).bind fun x3 h3 => (feAddInt_ok h3 curveB).bind fun x3 h3 => feEqual_ok h2 h3
  · rw [if_pos rfl, if_pos (show (geErase c).infinity = true from hi)]
    exact Runs.some rfl

theorem gejDoubleV_ok (ha : GejTracked a) : Runs (gejDoubleV a) (GejIs · (gejDouble (gejErase a))) := by
  unfold gejDoubleV
  refine Runs.check (gejVerify_ok ha) ?_
  refine (feMul_ok (GejIs.pz ha) (GejIs.py ha)).bind fun rz hz => (feSqr_ok (GejIs.py ha)).bind fun s hs => ?_
  refine (feSqr_ok (GejIs.px ha)).bind fun l hl => (feMulInt_ok hl 3).bind fun l hl => (feHalf_ok hl).bind fun l hl => ?_
  refine (feNegate_ok hs 1).bind fun t ht => (feMul_ok ht (GejIs.px ha)).bind fun t ht => ?_
  refine (feSqr_ok hl).bind fun x hx => (feAdd_ok hx ht).bind fun x hx => (feAdd_ok hx ht).bind fun x hx => ?_
  refine (feSqr_ok hs).bind fun s hs => (feAdd_ok ht hx).bind fun t ht => ?_
  refine (feMul_ok ht hl).bind fun y hy => (feAdd_ok hy hs).bind fun y hy => (feNegate_ok hy 2).bind fun y hy => ?_
  exact retGej_ok hx hy hz

/-- The ratio a function gives back, when asked for it. -/
def QIs (q : Option (FeV α)) (f : Option α) (rzr : Bool) : Prop :=
  (rzr = false → q = none) ∧ (rzr = true → ∃ r, q = some r ∧ Tracked r ∧ some r.fe = f)

theorem set_ok {rzr : Bool} {e : Option (FeV α)} (he : Runs e (FeIs · f m)) :
    Runs (writeRzr rzr e) (QIs · (some f) rzr) := by
  cases rzr
  · exact Runs.some ⟨fun _ => rfl, fun h => by cases h⟩
  · exact he.map _ fun r hr => ⟨fun h => (by cases h), fun _ => ⟨r, rfl, hr.tr, by rw [hr.fe]⟩⟩

theorem gejDoubleVarV_ok (ha : GejTracked a) (rzr : Bool) : Runs (gejDoubleVarV a rzr) fun r =>
    GejIs r.1 (gejDoubleVar (gejErase a)).1 ∧ QIs r.2 (gejDoubleVar (gejErase a)).2 rzr := by
  unfold gejDoubleVarV gejDoubleVar
  refine Runs.check (gejVerify_ok ha) ?_
  cases hi : a.infinity
  · rw [if_neg (show ¬false = true by decide), if_neg (show ¬(gejErase a).infinity = true by simp [gejErase, hi])]
    refine (set_ok (feNormalizeWeak_ok (GejIs.py ha))).bind fun q hq => (gejDoubleV_ok ha).bind fun r hr => ?_
    exact Runs.bind (Runs.check (gejVerify_ok hr.tr) (Runs.some hr)) fun r hr => Runs.some ⟨hr, hq⟩
  · rw [if_pos (show true = true from rfl), if_pos (show (gejErase a).infinity = true from hi)]
    exact gejInfinityV_ok.bind fun r hr => (set_ok one_ok).bind fun q hq => Runs.some ⟨hr, hq⟩

/-- The point that the end of an addition computes. -/
def addTail (u1 s1 h i rz : α) : Gej α :=
  let h2 := sqr h
  let h2 := negate h2 1
  let h3 := mul h2 h
  let t := mul u1 h2
  let rx := sqr i
  let rx := add rx h3
  let rx := add rx t
  let rx := add rx t
  let t := add t rx
  let ry := mul t i
  let h3 := mul h3 s1
  let ry := add ry h3
  ⟨rx, ry, rz, false⟩

theorem addTailV_ok {u1 s1 h i rz : FeV α} {fu fs fh fi fz : α} {mu ms mh mi mz : ℕ} (hu : FeIs u1 fu mu)
    (hs : FeIs s1 fs ms) (hh : FeIs h fh mh) (hi : FeIs i fi mi) (hz : FeIs rz fz mz) (lu : mu ≤ 8 := by omega)
    (ls : ms ≤ 8 := by omega) (lh : mh ≤ 8 := by omega) (li : mi ≤ 8 := by omega) (lz : mz ≤ 1 := by omega) :
    Runs (addTailV u1 s1 h i rz) (GejIs · (addTail fu fs fh fi fz)) := by
  unfold addTailV
  refine (feSqr_ok hh).bind fun h2 hh2 => (feNegate_ok hh2 1).bind fun h2 hh2 => (feMul_ok hh2 hh).bind fun h3 hh3 => ?_
  refine (feMul_ok hu hh2).bind fun t ht => (feSqr_ok hi).bind fun x hx => (feAdd_ok hx hh3).bind fun x hx => ?_
  refine (feAdd_ok hx ht).bind fun x hx => (feAdd_ok hx ht).bind fun x hx => (feAdd_ok ht hx).bind fun t ht => ?_
  refine (feMul_ok ht hi).bind fun y hy => (feMul_ok hh3 hs).bind fun h3 hh3 => (feAdd_ok hy hh3).bind fun y hy => ?_
  exact retGej_ok hx hy hz

theorem gejAddVarV_ok (ha : GejTracked a) (hb : GejTracked b) (rzr : Bool)
    (hr : a.infinity = true → rzr = false) : Runs (gejAddVarV a b rzr) fun r =>
    GejIs r.1 (gejAddVar (gejErase a) (gejErase b)).1 ∧ QIs r.2 (gejAddVar (gejErase a) (gejErase b)).2 rzr := by
  unfold gejAddVarV gejAddVar
  refine Runs.check (gejVerify_ok ha) (Runs.check (gejVerify_ok hb) ?_)
  cases hi : a.infinity
  · rw [if_neg (show ¬false = true by decide), if_neg (show ¬(gejErase a).infinity = true by simp [gejErase, hi])]
    cases hj : b.infinity
    · rw [if_neg (show ¬false = true by decide), if_neg (show ¬(gejErase b).infinity = true by simp [gejErase, hj])]
      refine (feSqr_ok (GejIs.pz hb)).bind fun z22 h22 => (feSqr_ok (GejIs.pz ha)).bind fun z12 h12 => ?_
      refine (feMul_ok (GejIs.px ha) h22).bind fun u1 hu1 => (feMul_ok (GejIs.px hb) h12).bind fun u2 hu2 => ?_
      refine (feMul_ok (GejIs.py ha) h22).bind fun s1 hs1 => (feMul_ok hs1 (GejIs.pz hb)).bind fun s1 hs1 => ?_
      refine (feMul_ok (GejIs.py hb) h12).bind fun s2 hs2 => (feMul_ok hs2 (GejIs.pz ha)).bind fun s2 hs2 => ?_
      refine (feNegate_ok hu1 1).bind fun h hh => (feAdd_ok hh hu2).bind fun h hh => ?_
      refine (feNegate_ok hs2 1).bind fun i hi => (feAdd_ok hi hs1).bind fun i hi => ?_
      refine (feNormalizesToZero_ok hh).bind fun hz hhz => ?_
      subst hhz
      dsimp only [gejErase]
      split
      · refine (feNormalizesToZero_ok hi).bind fun iz hiz => ?_
        subst hiz
        split
        · exact gejDoubleVarV_ok ha rzr
        · exact (set_ok (feSetInt_ok 0)).bind fun q hq => gejInfinityV_ok.bind fun r hr => Runs.some ⟨hr, hq⟩
      · refine (feMul_ok hh (GejIs.pz hb)).bind fun t ht => (feMul_ok (GejIs.pz ha) ht).bind fun rz hrz => ?_
        refine (addTailV_ok hu1 hs1 hh hi hrz).bind fun r hr => Runs.some ⟨hr, ?_⟩
        exact ⟨fun h => by rw [h]; rfl, fun h => ⟨t, by rw [h]; rfl, ht.tr, by rw [ht.fe]⟩⟩
    · rw [if_pos (show true = true from rfl), if_pos (show (gejErase b).infinity = true from hj)]
      exact (set_ok one_ok).bind fun q hq => Runs.some ⟨⟨rfl, ha⟩, hq⟩
  · rw [if_pos (show true = true from rfl), if_pos (show (gejErase a).infinity = true from hi)]
    have := hr hi
    exact Runs.check (by rw [this]; rfl) (Runs.some ⟨⟨rfl, hb⟩, fun _ => rfl, fun h => by rw [this] at h; cases h⟩)

theorem gejAddGeVarV_ok (ha : GejTracked a) (hb : GeTracked c) (rzr : Bool)
    (hr : a.infinity = true → rzr = false) : Runs (gejAddGeVarV a c rzr) fun r =>
    GejIs r.1 (gejAddGeVar (gejErase a) (geErase c)).1 ∧ QIs r.2 (gejAddGeVar (gejErase a) (geErase c)).2 rzr := by
  unfold gejAddGeVarV gejAddGeVar
  refine Runs.check (gejVerify_ok ha) (Runs.check (geVerify_ok hb) ?_)
  cases hi : a.infinity
  · rw [if_neg (show ¬false = true by decide), if_neg (show ¬(gejErase a).infinity = true by simp [gejErase, hi])]
    cases hj : c.infinity
    · rw [if_neg (show ¬false = true by decide), if_neg (show ¬(geErase c).infinity = true by simp [geErase, hj])]
      refine (feSqr_ok (GejIs.pz ha)).bind fun z12 h12 => (feMul_ok (GeIs.px hb) h12).bind fun u2 hu2 => ?_
      refine (feMul_ok (GeIs.py hb) h12).bind fun s2 hs2 => (feMul_ok hs2 (GejIs.pz ha)).bind fun s2 hs2 => ?_
      refine (feNegate_ok (GejIs.px ha) 4).bind fun h hh => (feAdd_ok hh hu2).bind fun h hh => ?_
      refine (feNegate_ok hs2 1).bind fun i hi => (feAdd_ok hi (GejIs.py ha)).bind fun i hi => ?_
      refine (feNormalizesToZero_ok hh).bind fun hz hhz => ?_
      subst hhz
      dsimp only [gejErase, geErase, gejXMag]
      split
      · refine (feNormalizesToZero_ok hi).bind fun iz hiz => ?_
        subst hiz
        split
        · exact gejDoubleVarV_ok ha rzr
        · exact (set_ok (feSetInt_ok 0)).bind fun q hq => gejInfinityV_ok.bind fun r hr => Runs.some ⟨hr, hq⟩
      · refine (feMul_ok (GejIs.pz ha) hh).bind fun rz hrz => ?_
        refine (addTailV_ok (GejIs.px ha) (GejIs.py ha) hh hi hrz).bind fun r hr =>
          Runs.check (by rw [hh.tr.verify]; simp) (Runs.some ⟨hr, ?_⟩)
        exact ⟨fun e => by rw [e]; rfl, fun e => ⟨h, by rw [e]; rfl, hh.tr, by rw [hh.fe]⟩⟩
    · rw [if_pos (show true = true from rfl), if_pos (show (geErase c).infinity = true from hj)]
      exact (set_ok one_ok).bind fun q hq => Runs.some ⟨⟨rfl, ha⟩, hq⟩
  · rw [if_pos (show true = true from rfl), if_pos (show (gejErase a).infinity = true from hi)]
    have := hr hi
    exact Runs.check (by rw [this]; rfl) ((gejSetGeV_ok hb).bind fun r hr =>
      Runs.some ⟨hr, fun _ => rfl, fun h => by rw [this] at h; cases h⟩)

theorem gejAddZinvVarV_ok (ha : GejTracked a) (hb : GeTracked c) (hz : FeIs z f m) (hm : m ≤ 8 := by omega) :
    Runs (gejAddZinvVarV a c z) (GejIs · (gejAddZinvVar (gejErase a) (geErase c) f)) := by
  unfold gejAddZinvVarV gejAddZinvVar
  refine Runs.check (gejVerify_ok ha) (Runs.check (geVerify_ok hb) (Runs.check hz.tr.verify ?_))
  cases hi : a.infinity
  · rw [if_neg (show ¬false = true by decide), if_neg (show ¬(gejErase a).infinity = true by simp [gejErase, hi])]
    cases hj : c.infinity
    · rw [if_neg (show ¬false = true by decide), if_neg (show ¬(geErase c).infinity = true by simp [geErase, hj])]
      refine (feMul_ok (GejIs.pz ha) hz).bind fun az haz => ?_
      refine (feSqr_ok haz).bind fun z12 h12 => (feMul_ok (GeIs.px hb) h12).bind fun u2 hu2 => ?_
      refine (feMul_ok (GeIs.py hb) h12).bind fun s2 hs2 => (feMul_ok hs2 haz).bind fun s2 hs2 => ?_
      refine (feNegate_ok (GejIs.px ha) 4).bind fun h hh => (feAdd_ok hh hu2).bind fun h hh => ?_
      refine (feNegate_ok hs2 1).bind fun i hi => (feAdd_ok hi (GejIs.py ha)).bind fun i hi => ?_
      refine (feNormalizesToZero_ok hh).bind fun hz hhz => ?_
      subst hhz
      dsimp only [gejErase, geErase, gejXMag]
      split
      · refine (feNormalizesToZero_ok hi).bind fun iz hiz => ?_
        subst hiz
        split
        · exact (gejDoubleVarV_ok ha false).map _ fun r hr => hr.1
        · exact gejInfinityV_ok
      · refine (feMul_ok (GejIs.pz ha) hh).bind fun rz hrz => ?_
        exact addTailV_ok (GejIs.px ha) (GejIs.py ha) hh hi hrz
    · rw [if_pos (show true = true from rfl), if_pos (show (geErase c).infinity = true from hj)]
      exact Runs.some ⟨rfl, ha⟩
  · rw [if_pos (show true = true from rfl), if_pos (show (gejErase a).infinity = true from hi)]
    refine (feSqr_ok hz).bind fun z2 h2 => (feMul_ok h2 hz).bind fun z3 h3 => ?_
    refine (feMul_ok (GeIs.px hb) h2).bind fun x hx => (feMul_ok (GeIs.py hb) h3).bind fun y hy => ?_
    exact one_ok.bind fun z hz => retGej_ok hx hy hz

theorem gejAddGeV_ok (ha : GejTracked a) (hb : GeTracked c) (hi : c.infinity = false) :
    Runs (gejAddGeV a c) (GejIs · (gejAddGe (gejErase a) (geErase c))) := by
  unfold gejAddGeV
  refine Runs.check (gejVerify_ok ha) (Runs.check (geVerify_ok hb) (Runs.check (by rw [hi]; rfl) ?_))
  refine (feSqr_ok (GejIs.pz ha)).bind fun zz hzz => (feMul_ok (GeIs.px hb) hzz).bind fun u2 hu2 => ?_
  refine (feMul_ok (GeIs.py hb) hzz).bind fun s2 hs2 => (feMul_ok hs2 (GejIs.pz ha)).bind fun s2 hs2 => ?_
  refine (feAdd_ok (GejIs.px ha) hu2).bind fun t ht => (feAdd_ok (GejIs.py ha) hs2).bind fun m hm => ?_
  refine (feSqr_ok ht).bind fun rr hrr => (feNegate_ok hu2 1).bind fun malt hmalt => ?_
  refine (feMul_ok (GejIs.px ha) hmalt).bind fun tt htt => (feAdd_ok hrr htt).bind fun rr hrr => ?_
  refine (feNormalizesToZero_ok hm).bind fun deg hdeg => ?_
  refine (feMulInt_ok (GejIs.py ha) 2).bind fun rralt hrralt => (feAdd_ok hmalt (GejIs.px ha)).bind fun malt hmalt => ?_
  refine (feCmov_ok hrralt hrr (!deg)).bind fun rralt hrralt => (feCmov_ok hmalt hm (!deg)).bind fun malt hmalt => ?_
  refine (feSqr_ok hmalt).bind fun n hn => (feNegate_ok ht 5).bind fun q hq => (feMul_ok hq hn).bind fun q hq => ?_
  refine (feSqr_ok hn).bind fun n hn => (feCmov_ok hn hm deg).bind fun n hn => (feSqr_ok hrralt).bind fun t ht => ?_
  refine (feMul_ok (GejIs.pz ha) hmalt).bind fun rz hrz => (feAdd_ok ht hq).bind fun t ht => ?_
  refine (feMulInt_ok ht 2).bind fun t2 ht2 => (feAdd_ok ht2 hq).bind fun t2 ht2 => ?_
  refine (feMul_ok ht2 hrralt).bind fun t2 ht2 => (feAdd_ok ht2 hn).bind fun t2 ht2 => ?_
  refine (feNegate_ok ht2 6).bind fun ry hry => (feHalf_ok hry).bind fun ry hry => ?_
  refine (feCmov_ok ht (GeIs.px hb) a.infinity).bind fun rx hrx => (feCmov_ok hry (GeIs.py hb) a.infinity).bind fun ry hry => ?_
  refine one_ok.bind fun one hone => (feCmov_ok hrz hone a.infinity).bind fun rz hrz => ?_
  refine (feNormalizesToZero_ok hrz).bind fun z hz => ?_
  subst hz hdeg
  exact retGej_ok hrx hry hrz

theorem gejRescaleV_ok (ha : GejTracked a) (hz : FeIs z f m) (h0 : normalizesToZero f = false) (hm : m ≤ 8 := by omega) :
    Runs (gejRescaleV a z) (GejIs · (gejRescale (gejErase a) f)) := by
  unfold gejRescaleV
  refine Runs.check (gejVerify_ok ha) (Runs.check hz.tr.verify ((feNormalizesToZero_ok hz).bind fun z0 hz0 =>
    Runs.check (by rw [hz0, h0]; rfl) ?_))
  refine (feSqr_ok hz).bind fun zz hzz => (feMul_ok (GejIs.px ha) hzz).bind fun x hx => ?_
  refine (feMul_ok (GejIs.py ha) hzz).bind fun y hy => (feMul_ok hy hz).bind fun y hy => ?_
  exact (feMul_ok (GejIs.pz ha) hz).bind fun z hz => retGej_ok hx hy hz

theorem gejCmovV_ok (ha : GejTracked a) (hb : GejTracked b) (flag : Bool) :
    Runs (gejCmovV a b flag) (GejIs · (gejCmov (gejErase a) (gejErase b) flag)) := by
  unfold gejCmovV
  refine Runs.check (gejVerify_ok ha) (Runs.check (gejVerify_ok hb) ?_)
  refine (feCmov_ok (GejIs.px ha) (GejIs.px hb) flag).bind fun x hx => ?_
  refine (feCmov_ok (GejIs.py ha) (GejIs.py hb) flag).bind fun y hy => ?_
  exact (feCmov_ok (GejIs.pz ha) (GejIs.pz hb) flag).bind fun z hz => retGej_ok hx hy hz

theorem gejEqVarV_ok (ha : GejTracked a) (hb : GejTracked b) :
    Runs (gejEqVarV a b) (· = gejEqVar (gejErase a) (gejErase b)) := by
  unfold gejEqVarV gejEqVar
  refine Runs.check (gejVerify_ok hb) (Runs.check (gejVerify_ok ha) ((gejNegV_ok ha).bind fun t ht =>
    (gejAddVarV_ok ht.tr hb false fun _ => rfl).bind fun r hr => Runs.check (gejVerify_ok hr.1.tr) (Runs.some ?_)))
  dsimp only
  rw [← ht.eq, ← hr.1.eq]
  rfl

theorem gejEqGeVarV_ok (ha : GejTracked a) (hb : GeTracked c) :
    Runs (gejEqGeVarV a c) (· = gejEqGeVar (gejErase a) (geErase c)) := by
  unfold gejEqGeVarV gejEqGeVar
  refine Runs.check (gejVerify_ok ha) (Runs.check (geVerify_ok hb) ((gejNegV_ok ha).bind fun t ht =>
    (gejAddGeVarV_ok ht.tr hb false fun _ => rfl).bind fun r hr => Runs.check (gejVerify_ok hr.1.tr) (Runs.some ?_)))
  dsimp only
  rw [← ht.eq, ← hr.1.eq]
  rfl

theorem geEqVarV_ok (ha : GeTracked c) (hb : GeTracked d) :
    Runs (geEqVarV c d) (· = geEqVar (geErase c) (geErase d)) := by
  unfold geEqVarV geEqVar
  refine Runs.check (geVerify_ok ha) (Runs.check (geVerify_ok hb) ?_)
  dsimp only [geErase]
  split
  · exact Runs.some (by simp_all)
  · split
    · exact Runs.some (by simp_all)
    · refine (feNormalizeWeak_ok (GeIs.px ha)).bind fun t ht => (feEqual_ok ht (GeIs.px hb)).bind fun e he => ?_
      subst he
      split
      · exact Runs.some (by simp_all)
      · refine (feNormalizeWeak_ok (GeIs.py ha)).bind fun t ht => (feEqual_ok ht (GeIs.py hb)).bind fun e he => ?_
        subst he
        split <;> exact Runs.some (by simp_all)

theorem gejEqXVarV_ok (hx : FeIs x f m) (ha : GejTracked a) (hi : a.infinity = false) (hm : m ≤ 8 := by omega) :
    Runs (gejEqXVarV x a) (· = gejEqXVar f (gejErase a)) := by
  unfold gejEqXVarV
  refine Runs.check hx.tr.verify (Runs.check (gejVerify_ok ha) (Runs.check (by rw [hi]; rfl) ?_))
  exact (feSqr_ok (GejIs.pz ha)).bind fun r hr => (feMul_ok hr hx).bind fun r hr => feEqual_ok hr (GejIs.px ha)

theorem geMulLambdaV_ok (ha : GeTracked c) : Runs (geMulLambdaV c) (GeIs · (geMulLambda (geErase c))) := by
  unfold geMulLambdaV
  refine Runs.check (geVerify_ok ha) ?_
  exact (feMul_ok (GeIs.px ha) (feConst_ok (by decide +kernel))).bind fun x hx => retGe_ok hx (GeIs.py ha)

theorem feIsOddV_ok (hx : FeIs x f m) (hn : x.normalized = true) : Runs (feIsOddV x) (· = FeMem.isOdd f) := by
  unfold feIsOddV
  rw [hx.fe]
  exact Runs.check hx.tr.verify (Runs.check hn (Runs.some rfl))

theorem geSetXoVarV_ok (hx : FeIs x f m) (odd : Bool) (hm : m ≤ 4 := by omega) :
    Runs (geSetXoVarV x odd) fun r => GeIs r.1 (Limb.geSetXoVar f odd).1 ∧ r.2 = (Limb.geSetXoVar f odd).2 := by
  unfold geSetXoVarV Limb.geSetXoVar
  refine Runs.check hx.tr.verify ((feSqr_ok hx).bind fun x2 h2 => (feMul_ok hx h2).bind fun x3 h3 => ?_)
  refine (feAddInt_ok h3 curveB).bind fun x3 h3 => (feSqrt_ok h3).bind fun s hs => ?_
  refine (feNormalize_ok hs.1).bind fun y hy => (feIsOddV_ok hy.1 hy.2).bind fun o ho => ?_
  subst ho
  have hy2 : ∀ (e : Bool) (w : α), FeIs y w 1 → Runs (bif e then feNegate y 1 else some y)
      (FeIs · (if e then FeOps.negate w 1 else w) 2) := by
    intro e w hw
    cases e
    · exact Runs.some (hw.mono (by decide))
    · exact feNegate_ok hw 1
  exact (hy2 _ _ hy.1).bind fun y hy => (retGe_ok hx hy).bind fun r hr => Runs.some ⟨hr, hs.2⟩

theorem geXOnCurveVarV_ok (hx : FeIs x f m) (hm : m ≤ 8 := by omega) :
    Runs (geXOnCurveVarV x) (· = Limb.geXOnCurveVar f) := by
  unfold geXOnCurveVarV
  exact (feSqr_ok hx).bind fun c hc => (feMul_ok hc hx).bind fun c hc => (feAddInt_ok hc curveB).bind fun c hc =>
    feIsSquareVarV_ok hc

theorem geXFracOnCurveVarV_ok (hx : FeIs x f m) (hz : FeIs z g k) (h0 : normalizesToZero g = false)
    (hm : m ≤ 8 := by omega) (hk : k ≤ 8 := by omega) :
    Runs (geXFracOnCurveVarV x z) (· = Limb.geXFracOnCurveVar f g) := by
  unfold geXFracOnCurveVarV
  refine (feNormalizesToZero_ok hz).bind fun z0 hz0 => Runs.check (by rw [hz0, h0]; rfl) ?_
  refine (feMul_ok hz hx).bind fun r hr => (feSqr_ok hx).bind fun t ht => (feMul_ok hr ht).bind fun r hr => ?_
  refine (feSqr_ok hz).bind fun t ht => (feSqr_ok ht).bind fun t ht => (feMulInt_ok ht 7).bind fun t ht => ?_
  exact (feAdd_ok hr ht).bind fun r hr => feIsSquareVarV_ok hr

end Secp.Model.Verify
