import Verif.Proof.VerifyGroup
import Verif.Proof.VerifyScalar
import Verif.Proof.EcmultLimb
import Verif.Proof.Strauss

/-!
# The checks of a `VERIFY` build hold while tables of multiples are computed
-/

namespace Secp.Model.Verify
open Secp FeOps LimbRep

variable {α : Type} [FeOps α] [FeMem α] [LimbRep α] [FeCheck α] [Bounds α] [VerifyRep α]
variable {a b : Gej (FeV α)} {c d : Ge (FeV α)} {x y z : FeV α} {f g h : α} {m k l : ℕ} {i : Bool}

/-! ## sharper bounds for doubling and addition -/

/-- `r` is the point `g` and `y` has magnitude at most 3. -/
def GejIs3 (r : Gej (FeV α)) (g : Gej α) : Prop := GejIs r g ∧ r.y.magnitude ≤ 3

theorem retGej_ok3 (hx : FeIs x f m) (hy : FeIs y g k) (hz : FeIs z h l) (hm : m ≤ 4 := by omega)
    (hk : k ≤ 3 := by omega) (hl : l ≤ 1 := by omega) : Runs (retGej ⟨x, y, z, i⟩) (GejIs3 · ⟨f, g, h, i⟩) := by
  have ht : GejTracked (⟨x, y, z, i⟩ : Gej (FeV α)) :=
    ⟨hx.tr, hy.tr, hz.tr, hx.le.trans hm, hy.le.trans (by omega), hz.le.trans hl⟩
  exact Runs.check (gejVerify_ok ht) (Runs.some ⟨⟨by simp only [gejErase, hx.fe, hy.fe, hz.fe], ht⟩, hy.le.trans hk⟩)

theorem gejDoubleV_ok3 (ha : GejTracked a) : Runs (gejDoubleV a) (GejIs3 · (gejDouble (gejErase a))) := by
  unfold gejDoubleV
  refine Runs.check (gejVerify_ok ha) ?_
  refine (feMul_ok (GejIs.pz ha) (GejIs.py ha)).bind fun rz hz => (feSqr_ok (GejIs.py ha)).bind fun s hs => ?_
  refine (feSqr_ok (GejIs.px ha)).bind fun l hl => (feMulInt_ok hl 3).bind fun l hl => (feHalf_ok hl).bind fun l hl => ?_
  refine (feNegate_ok hs 1).bind fun t ht => (feMul_ok ht (GejIs.px ha)).bind fun t ht => ?_
  refine (feSqr_ok hl).bind fun x hx => (feAdd_ok hx ht).bind fun x hx => (feAdd_ok hx ht).bind fun x hx => ?_
  refine (feSqr_ok hs).bind fun s hs => (feAdd_ok ht hx).bind fun t ht => ?_
  refine (feMul_ok ht hl).bind fun y hy => (feAdd_ok hy hs).bind fun y hy => (feNegate_ok hy 2).bind fun y hy => ?_
  exact retGej_ok3 hx hy hz

theorem gejInfinityV_ok3 : Runs (gejInfinityV : Option (Gej (FeV α))) (GejIs3 · gejInfinity) := by
  unfold gejInfinityV
  exact (feSetInt_ok 0).bind fun x hx => (feSetInt_ok 0).bind fun y hy => (feSetInt_ok 0).bind fun z hz =>
    retGej_ok3 hx hy hz (by decide) (by decide) (by decide)

theorem gejDoubleVarV_ok3 (ha : GejTracked a) (hi : a.infinity = false) : Runs (gejDoubleVarV a true) fun r =>
    GejIs3 r.1 (gejDoubleVar (gejErase a)).1 ∧
      ∃ q, r.2 = some q ∧ FeIs q ((gejDoubleVar (gejErase a)).2.getD (setInt 0)) 6 := by
  unfold gejDoubleVarV gejDoubleVar
  refine Runs.check (gejVerify_ok ha) ?_
  rw [hi, if_neg (show ¬false = true by decide), if_neg (show ¬(gejErase a).infinity = true by simp [gejErase, hi])]
  refine Runs.bind (Q := fun q => ∃ r, q = some r ∧ FeIs r (normalizeWeak (gejErase a).y) 6)
    ((feNormalizeWeak_ok (GejIs.py ha)).map _ fun r hr => ⟨r, rfl, hr.mono (by omega)⟩) fun q hq => ?_
  refine (gejDoubleV_ok3 ha).bind fun r hr => ?_
  exact Runs.bind (Runs.check (gejVerify_ok hr.1.tr) (Runs.some hr)) fun r hr => Runs.some ⟨hr, hq⟩

theorem gejDoubleVarV_ok3' (ha : GejTracked a) (hi : a.infinity = false) : Runs (gejDoubleVarV a false) fun r =>
    GejIs3 r.1 (gejDoubleVar (gejErase a)).1 := by
  unfold gejDoubleVarV gejDoubleVar
  refine Runs.check (gejVerify_ok ha) ?_
  rw [hi, if_neg (show ¬false = true by decide), if_neg (show ¬(gejErase a).infinity = true by simp [gejErase, hi])]
  refine Runs.bind (Q := fun _ => True) ⟨_, rfl, trivial⟩ fun q _ => ?_
  refine (gejDoubleV_ok3 ha).bind fun r hr => ?_
  exact Runs.bind (Runs.check (gejVerify_ok hr.1.tr) (Runs.some hr)) fun r hr => Runs.some hr

theorem addTailV_ok3 {u1 s1 h i rz : FeV α} {fu fs fh fi fz : α} {mu ms mh mi mz : ℕ} (hu : FeIs u1 fu mu)
    (hs : FeIs s1 fs ms) (hh : FeIs h fh mh) (hi : FeIs i fi mi) (hz : FeIs rz fz mz) (lu : mu ≤ 8 := by omega)
    (ls : ms ≤ 8 := by omega) (lh : mh ≤ 8 := by omega) (li : mi ≤ 8 := by omega) (lz : mz ≤ 1 := by omega) :
    Runs (addTailV u1 s1 h i rz) (GejIs3 · (addTail fu fs fh fi fz)) := by
  unfold addTailV
  refine (feSqr_ok hh).bind fun h2 hh2 => (feNegate_ok hh2 1).bind fun h2 hh2 => (feMul_ok hh2 hh).bind fun h3 hh3 => ?_
  refine (feMul_ok hu hh2).bind fun t ht => (feSqr_ok hi).bind fun x hx => (feAdd_ok hx hh3).bind fun x hx => ?_
  refine (feAdd_ok hx ht).bind fun x hx => (feAdd_ok hx ht).bind fun x hx => (feAdd_ok ht hx).bind fun t ht => ?_
  refine (feMul_ok ht hi).bind fun y hy => (feMul_ok hh3 hs).bind fun h3 hh3 => (feAdd_ok hy hh3).bind fun y hy => ?_
  exact retGej_ok3 hx hy hz

theorem gejAddGeVarV_ok3 (ha : GejTracked a) (hb : GeTracked c) (hi : a.infinity = false) (hj : c.infinity = false) :
    Runs (gejAddGeVarV a c true) fun r => GejIs3 r.1 (gejAddGeVar (gejErase a) (geErase c)).1 ∧
      ∃ q, r.2 = some q ∧ FeIs q ((gejAddGeVar (gejErase a) (geErase c)).2.getD (setInt 0)) 6 := by
  unfold gejAddGeVarV gejAddGeVar
  refine Runs.check (gejVerify_ok ha) (Runs.check (geVerify_ok hb) ?_)
  rw [hi, if_neg (show ¬false = true by decide), if_neg (show ¬(gejErase a).infinity = true by simp [gejErase, hi])]
  rw [hj, if_neg (show ¬false = true by decide), if_neg (show ¬(geErase c).infinity = true by simp [geErase, hj])]
  refine (feSqr_ok (GejIs.pz ha)).bind fun z12 h12 => (feMul_ok (GeIs.px hb) h12).bind fun u2 hu2 => ?_
  refine (feMul_ok (GeIs.py hb) h12).bind fun s2 hs2 => (feMul_ok hs2 (GejIs.pz ha)).bind fun s2 hs2 => ?_
  refine (feNegate_ok (GejIs.px ha) 4).bind fun h hh => (feAdd_ok hh hu2).bind fun h hh => ?_
  refine (feNegate_ok hs2 1).bind fun i hi' => (feAdd_ok hi' (GejIs.py ha)).bind fun i hi' => ?_
  refine (feNormalizesToZero_ok hh).bind fun hz hhz => ?_
  subst hhz
  dsimp only [gejErase, geErase, gejXMag]
  split
  · refine (feNormalizesToZero_ok hi').bind fun iz hiz => ?_
    subst hiz
    split
    · exact gejDoubleVarV_ok3 ha hi
    · refine Runs.bind (Q := fun q => ∃ r, q = some r ∧ FeIs r (setInt 0) 6)
        ((feSetInt_ok 0).map _ fun r hr => ⟨r, rfl, hr.mono (by decide)⟩) fun q hq => ?_
      exact gejInfinityV_ok3.bind fun r hr => Runs.some ⟨hr, hq⟩
  · refine (feMul_ok (GejIs.pz ha) hh).bind fun rz hrz => ?_
    exact (addTailV_ok3 (GejIs.px ha) (GejIs.py ha) hh hi' hrz).bind fun r hr =>
      Runs.check (by rw [hh.tr.verify]; simp) (Runs.some ⟨hr, h, rfl, hh⟩)

/-! ## tables -/

/-- The running point is not the point at infinity in any of the next `k` additions of `d`. -/
def NoInf {β : Type} [FeOps β] (d : Ge β) : ℕ → Gej β → Prop
  | 0, _ => True
  | k + 1, a => a.infinity = false ∧ NoInf d k (gejAddGeVar a d).1

/-- An entry of a table with the ratio of the z coordinates. -/
structure EntIs (e : Ge (FeV α) × FeV α) (E : Ge α × α) : Prop where
  ge : GeIs e.1 E.1
  inf : e.1.infinity = false
  z : FeIs e.2 E.2 6

/-- An entry of a table with a common z coordinate. -/
structure TabIs (e : Ge (FeV α)) (E : Ge α) : Prop where
  ge : GeIs e E
  y1 : e.y.magnitude ≤ 1

theorem GejIs.inf {b' : Gej α} (h : GejIs a b') {v : Bool} (hv : b'.infinity = v) : a.infinity = v := by
  rw [← hv, ← h.eq]; rfl

theorem FeIs.of_gej_x {G : Gej α} (h : GejIs a G) : FeIs a.x G.x 4 := by
  rw [← h.eq]; exact GejIs.px h.tr

theorem FeIs.of_gej_y {G : Gej α} (h : GejIs3 a G) : FeIs a.y G.y 3 := by
  have := h.1.tr
  rw [← h.1.eq]; exact ⟨rfl, this.y, h.2⟩

theorem FeIs.of_gej_z {G : Gej α} (h : GejIs a G) : FeIs a.z G.z 1 := by
  rw [← h.eq]; exact GejIs.pz h.tr

theorem oddMultiplesLoopV_ok (hd : GeTracked d) (hdi : d.infinity = false) : ∀ (k : ℕ) {a : Gej (FeV α)},
    GejTracked a → NoInf (geErase d) k (gejErase a) → Runs (oddMultiplesLoopV d k a) fun r =>
      List.Forall₂ EntIs r.1 (oddMultiplesLoop (geErase d) k (gejErase a)).1 ∧
        GejIs r.2 (oddMultiplesLoop (geErase d) k (gejErase a)).2
  | 0, _, ha, _ => Runs.some ⟨.nil, rfl, ha⟩
  | k + 1, a, ha, hn => by
    unfold oddMultiplesLoopV
    refine (gejAddGeVarV_ok3 ha hd hn.1 hdi).bind fun s hs => ?_
    obtain ⟨hs, q, hq, hf⟩ := hs
    refine Runs.bind (Q := fun z => FeIs z _ 6) ⟨q, hq, hf⟩ fun z hz => ?_
    refine (geSetXYV_ok (FeIs.of_gej_x hs.1) (FeIs.of_gej_y hs)).bind fun g hg => ?_
    have ih := oddMultiplesLoopV_ok hd hdi k hs.1.tr (by rw [hs.1.eq]; exact hn.2)
    rw [hs.1.eq] at ih
    refine ih.bind fun r hr => Runs.some ⟨.cons ⟨hg, ?_, hz⟩ hr.1, hr.2⟩
    have := congrArg Ge.infinity hg.eq
    exact this

/-- What the computation of a table of odd multiples needs: no sum on the way is the point at infinity. -/
def TableNoInf {β : Type} [FeOps β] (cnt : ℕ) (a : Gej β) : Prop :=
  a.infinity = false ∧ NoInf (geSetXY (gejDoubleVar a).1.x (gejDoubleVar a).1.y) (cnt - 1)
    { gejSetGe (geSetGejZinv a (gejDoubleVar a).1.z) with z := a.z }

theorem oddMultiplesTableV_ok (cnt : ℕ) (ha : GejTracked a) (hn : TableNoInf cnt (gejErase a)) :
    Runs (oddMultiplesTableV cnt a) fun r =>
      List.Forall₂ EntIs r.1 (oddMultiplesTable cnt (gejErase a)).1 ∧
        FeIs r.2 (oddMultiplesTable cnt (gejErase a)).2 1 := by
  have hi : a.infinity = false := hn.1
  unfold oddMultiplesTableV
  refine Runs.check (by rw [hi]; rfl) ?_
  refine (gejDoubleVarV_ok3' ha hi).bind fun d hd => ?_
  refine (geSetXYV_ok (FeIs.of_gej_x hd.1) (FeIs.of_gej_y hd)).bind fun dGe hdGe => ?_
  have hdi : dGe.infinity = false := congrArg Ge.infinity hdGe.eq
  refine (geSetGejZinvV_ok ha (FeIs.of_gej_z hd.1) hi).bind fun pre0 hp => ?_
  refine (gejSetGeV_ok hp.tr).bind fun ai hai => ?_
  have ht : GejTracked { ai with z := a.z } := ⟨hai.tr.x, hai.tr.y, ha.z, hai.tr.xm, hai.tr.ym, ha.zm⟩
  have he : gejErase { ai with z := a.z } =
      { gejSetGe (geSetGejZinv (gejErase a) (gejDoubleVar (gejErase a)).1.z) with z := (gejErase a).z } := by
    rw [← hp.eq, ← hai.eq]; rfl
  have hl := oddMultiplesLoopV_ok hdGe.tr hdi (cnt - 1) ht (by rw [he, hdGe.eq]; exact hn.2)
  rw [he, hdGe.eq] at hl
  refine hl.bind fun r hr => (feMul_ok (FeIs.of_gej_z hr.2) (FeIs.of_gej_z hd.1)).bind fun z hz => ?_
  refine Runs.some ⟨.cons ⟨hp, ?_, (FeIs.of_gej_z hd.1).mono (by omega)⟩ hr.1, hz⟩
  have := congrArg Ge.infinity hp.eq
  exact this.trans hi

theorem globalzLoopV_ok {t : List (Ge (FeV α) × FeV α)} {T : List (Ge α × α)} (h : List.Forall₂ EntIs t T) :
    ∀ {zs : FeV α} {Z : α} {acc : List (Ge (FeV α))} {ACC : List (Ge α)}, FeIs zs Z 8 →
    List.Forall₂ TabIs acc ACC → Runs (globalzLoopV t zs acc) (List.Forall₂ TabIs · (globalzLoop T Z ACC)) := by
  induction h with
  | nil => exact fun _ ha => Runs.some ha
  | cons h t ih =>
    intro zs Z acc ACC hz ha
    rename_i e E rest REST
    obtain ⟨E1, E2⟩ := E
    unfold globalzLoopV
    have hg := geSetGeZinvV_ok h.ge.tr hz h.inf
    rw [h.ge.eq] at hg
    have hy : Runs (geSetGeZinvV e.1 zs) (TabIs · (geSetGeZinv E1 Z)) := by
      unfold geSetGeZinvV
      have e1 := h.ge.eq
      dsimp only at e1
      subst e1
      refine Runs.check (geVerify_ok h.ge.tr) (Runs.check hz.tr.verify (Runs.check (by rw [h.inf]; rfl) ?_))
      refine (feSqr_ok hz).bind fun z2 h2 => (feMul_ok h2 hz).bind fun z3 h3 => ?_
      refine (feMul_ok (GeIs.px h.ge.tr) h2).bind fun x hx => (feMul_ok (GeIs.py h.ge.tr) h3).bind fun y hy => ?_
      have ht : GeTracked (⟨x, y, e.1.infinity⟩ : Ge (FeV α)) := ⟨hx.tr, hy.tr, hx.le.trans (by omega), hy.le.trans (by omega)⟩
      exact Runs.check (geVerify_ok ht) (Runs.some ⟨⟨by simp only [geErase, hx.fe, hy.fe]; rfl, ht⟩, hy.le⟩)
    refine hy.bind fun g hg => ?_
    cases t with
    | nil => exact Runs.bind (Q := fun _ => True) (Runs.some trivial) fun z' _ => Runs.some (.cons hg ha)
    | cons h' t' =>
      exact (feMul_ok hz h.z).bind fun z' hz' => ih (hz'.mono (by omega)) (.cons hg ha)

omit [FeOps α] [FeMem α] [LimbRep α] [FeCheck α] [Bounds α] [VerifyRep α] in
theorem forall₂_left {β γ : Type} {R : β → γ → Prop} {l : List β} {L : List γ} (h : List.Forall₂ R l L) {e : β}
    (he : e ∈ l) : ∃ E, R e E := by
  induction h with
  | nil => cases he
  | cons h _ ih =>
    rcases List.mem_cons.1 he with rfl | he
    · exact ⟨_, h⟩
    · exact ih he

theorem tableSetGlobalzV_ok {t : List (Ge (FeV α) × FeV α)} {T : List (Ge α × α)} (h : List.Forall₂ EntIs t T) :
    Runs (tableSetGlobalzV t) (List.Forall₂ TabIs · (tableSetGlobalz T)) := by
  have hv : (t.all fun e => geVerify e.1 && e.2.verify) = true := by
    rw [List.all_eq_true]
    intro e he
    obtain ⟨E, hE⟩ := forall₂_left h he
    rw [geVerify_ok hE.ge.tr, hE.z.tr.verify]; rfl
  have hr := List.forall₂_reverse_iff.2 h
  unfold tableSetGlobalzV tableSetGlobalz
  refine Runs.check hv ?_
  have key : Runs (globalzStartV t.reverse) (List.Forall₂ TabIs · (match T.reverse with
      | [] => []
      | (a, z) :: rest => globalzLoop rest z [{ a with y := normalizeWeak a.y }])) := by
    generalize t.reverse = r at hr
    generalize T.reverse = R at hr
    cases hr with
    | nil => exact Runs.some .nil
    | cons h t =>
      rename_i e E _ _
      obtain ⟨E1, E2⟩ := E
      unfold globalzStartV
      have e1 := h.ge.eq
      dsimp only at e1
      subst e1
      refine (feNormalizeWeak_ok (GeIs.py h.ge.tr)).bind fun y hy => ?_
      refine globalzLoopV_ok t (h.z.mono (by omega)) (.cons ⟨⟨?_, ?_⟩, hy.le⟩ .nil)
      · simp only [geErase, hy.fe]
      · exact ⟨h.ge.tr.x, hy.tr, h.ge.tr.xm, hy.le.trans (by omega)⟩
  refine key.bind fun r hr => Runs.check ?_ (Runs.some hr)
  rw [List.all_eq_true]
  intro e he
  obtain ⟨E, hE⟩ := forall₂_left hr he
  exact geVerify_ok hE.ge.tr

end Secp.Model.Verify
