import Verif.Proof.VerifyTable
import Verif.Proof.Parse
import Verif.Spec.VerifyMul

/-!
# The checks of a `VERIFY` build hold in the variable-time multiplication
-/

namespace Secp
open Model FeOps Model.Verify

/-! ## no sum on the way to a table of odd multiples is the point at infinity -/

theorem noInf_spec {b : Fp} (hb : NoTwoTorsion b) {C : Fp} (hC : C ≠ 0) {d : Ge Fp}
    {D : (curve b).Point} (hd : GeRep (b * C ^ 6) d (iso hb hC D)) :
    ∀ (k : ℕ) (ai : Gej Fp) (Q : (curve b).Point), GejRep (b * C ^ 6) ai (iso hb hC Q) →
      (∀ j, j < k → Q + j • D ≠ 0) → NoInf d k ai := by
  intro k
  induction k with
  | zero => exact fun _ _ _ _ => trivial
  | succ k ih =>
    intro ai Q h h0
    have hi : ai.infinity = false := by
      by_contra hi
      have := h.inf_iff.1 (by simpa using hi)
      rw [iso_eq_zero] at this
      exact h0 0 (Nat.succ_pos _) (by rw [this]; simp)
    have hs := gejAddGeVar_rep (iso_ntt hb hC) h hd
    rw [← map_add] at hs
    refine ⟨hi, ih _ (Q + D) hs fun j hj => ?_⟩
    have := h0 (j + 1) (by omega)
    rwa [add_smul, one_smul, add_comm (_ • D), ← add_assoc] at this

theorem tableNoInf_spec {b : Fp} (hb : NoTwoTorsion b) {a : Gej Fp} {A : (curve b).Point}
    (ha : GejRep b a A) (cnt : ℕ) (hcnt : 1 ≤ cnt) (h0 : ∀ j, j < cnt → (2 * j + 1) • A ≠ 0) :
    TableNoInf cnt a := by
  have hA : A ≠ 0 := by simpa using h0 0 hcnt
  have hi : a.infinity = false := by
    by_contra hi
    exact hA (ha.inf_iff.1 (by simpa using hi))
  have hd := gejDoubleVar_rep hb ha
  have hdi : (gejDoubleVar a).1.infinity = false := by simp [gejDoubleVar, hi, gejDouble]
  obtain ⟨_, _, _, hC, _⟩ := hd.elim hdi
  have hd' := (rep_iff_iso hb hC).1 hd
  rw [hdi] at hd'
  refine ⟨hi, ?_⟩
  generalize (gejDoubleVar a).1 = d at *
  obtain ⟨x, y, hn, hz, hx, hy, e⟩ := ha.elim hi
  have hai : GejRep (b * d.z ^ 6) { gejSetGe (geSetGejZinv a d.z) with z := a.z } (iso hb hC A) := by
    rw [iso_rep, e]
    refine GejRep.intro (a := ⟨_, _, _, _⟩) hi (mul_ne_zero hz hC) ?_ ?_
    · simp only [gejSetGe, geSetGejZinv, FeOps.mul, FeOps.sqr]; rw [hx]; ring
    · simp only [gejSetGe, geSetGejZinv, FeOps.mul, FeOps.sqr]; rw [hy]; ring
  refine noInf_spec hb hC (d := geSetXY d.x d.y) hd' (cnt - 1) _ A hai fun j hj => ?_
  have := h0 j (by omega)
  rw [← two_nsmul, ← mul_smul]
  rwa [add_comm, mul_comm, add_smul, one_smul] at this

namespace Model.Verify
open LimbRep

/-- Both coordinates of a table entry are field elements. -/
def Canonical (s : ℕ × ℕ) : Prop := s.1 < p ∧ s.2 < p

/-- The window size is one the build system accepts, and the entries of the two tables that it uses are pairs of
field elements. -/
structure TabCanonical (t : GTab) : Prop where
  window2 : 2 ≤ t.window
  window24 : t.window ≤ 24
  g : ∀ i < 2 ^ (t.window - 2), Canonical (t.g i)
  g128 : ∀ i < 2 ^ (t.window - 2), Canonical (t.g128 i)

section
variable {α : Type} [FeOps α] [LimbRep α]

theorem NoInf.limb {d : Ge α} {D : Ge Fp} (hd : GeLimb d D) : ∀ (k : ℕ) {a : Gej α} {A : Gej Fp}, GejLimb a A →
    NoInf D k A → NoInf d k a
  | 0, _, _, _, _ => trivial
  | k + 1, _, _, h, hn => ⟨h.inf.trans hn.1, NoInf.limb hd k (h.addGeVar hd).1 hn.2⟩

theorem TableNoInf.limb {a : Gej α} {A : Gej Fp} (h : GejLimb a A) {cnt : ℕ} (hn : TableNoInf cnt A) :
    TableNoInf cnt a := by
  have hd := h.doubleVar.1
  have hg : GeLimb (geSetXY (gejDoubleVar a).1.x (gejDoubleVar a).1.y)
      (geSetXY (gejDoubleVar A).1.x (gejDoubleVar A).1.y) := ⟨hd.x, h.doubleVar_y, rfl⟩
  have h0 := h.zinv hd.z
  refine ⟨h.inf.trans hn.1, NoInf.limb hg _ (A := { gejSetGe (geSetGejZinv A (gejDoubleVar A).1.z) with z := A.z }) ?_ hn.2⟩
  exact ⟨h0.x, h0.y.mono (by omega), h.z, h0.inf⟩
end

/-- What the multiplication code needs to know about a field implementation, besides `VerifyRep`. -/
class VerifyMul (α : Type) [FeOps α] [FeMem α] [LimbRep α] [FeCheck α] [Bounds α] [Value α] : Prop where
  storage : ∀ {k : ℕ}, k < p → Bounds.Norm (FeOps.ofStorage k : α)
  value : ∀ {a : α} {m : ℕ} {v : Fp}, Rep a m v → v = ((Value.nat a : ℕ) : Fp)

variable {α : Type} [FeOps α] [FeMem α] [LimbRep α] [FeCheck α] [Bounds α] [VerifyRep α] [Value α] [VerifyMul α]
variable {a b : Gej (FeV α)} {c d : Ge (FeV α)} {x y z : FeV α} {f g h : α} {m k l : ℕ} {i : Bool}

/-- The value of a tracked point. -/
theorem GejTracked.limb (h : GejTracked a) : ∃ A, GejLimb (gejErase a) A := by
  obtain ⟨x, hx⟩ := (GejIs.px h).rep
  obtain ⟨y, hy⟩ := (GejIs.py h).rep
  obtain ⟨z, hz⟩ := (GejIs.pz h).rep
  exact ⟨⟨x, y, z, a.infinity⟩, hx, hy, hz, rfl⟩

/-- The point that the limbs stand for. -/
def Stands (g : Gej α) : Prop := ∃ A P, GejLimb g A ∧ GejRep (7 : Fp) A P

theorem OnCurve.stands (h : GejTracked a) (hc : OnCurve (gejErase a)) : Stands (gejErase a) := by
  obtain ⟨A, hA⟩ := h.limb
  rcases hc with hc | ⟨h0, hc⟩
  · exact ⟨A, 0, hA, GejRep.of_inf (hA.inf.symm.trans hc)⟩
  · cases hi : A.infinity
    · rw [← VerifyMul.value hA.x, ← VerifyMul.value hA.y, ← VerifyMul.value hA.z] at hc
      rw [← VerifyMul.value hA.z] at h0
      have e : (A.y / A.z ^ 3) ^ 2 = (A.x / A.z ^ 2) ^ 3 + 7 := by
        rw [div_pow, div_pow, hc]
        field_simp
      obtain ⟨hn, -⟩ := exists_pt e
      refine ⟨A, .some _ _ hn, hA, GejRep.intro hi h0 ?_ ?_⟩ <;> field_simp
    · exact ⟨A, 0, hA, GejRep.of_inf hi⟩

/-! ## reading tables -/

theorem forall₂_get {β γ : Type} {R : β → γ → Prop} {l : List β} {L : List γ} (h : List.Forall₂ R l L) (D : γ) :
    ∀ {i : ℕ}, i < L.length → ∃ g, l[i]? = some g ∧ R g (L.getD i D) := by
  induction h with
  | nil => intro i hi; simp at hi
  | cons h _ ih =>
    intro i hi
    cases i with
    | zero => exact ⟨_, rfl, h⟩
    | succ i =>
      obtain ⟨g, e, hg⟩ := ih (i := i) (by simpa using hi)
      exact ⟨g, by simpa using e, by simpa using hg⟩

theorem negY_ok {C : Ge α} (h : TabIs c C) : Runs (negY c) (GeIs · { C with y := negate C.y 1 }) := by
  have e := h.ge.eq
  subst e
  unfold negY
  refine (feNegate_ok (f := c.y.fe) (m := 1) ⟨rfl, h.ge.tr.y, h.y1⟩ 1).bind fun y hy => Runs.some ⟨?_, ?_⟩
  · simp only [geErase, hy.fe]
  · exact ⟨h.ge.tr.x, hy.tr, h.ge.tr.xm, hy.le.trans (by omega)⟩

theorem runs_tableVerify {w : ℕ} {k : ℤ} (hk : DigitOk w k) (h0 : k ≠ 0) {β : Type} {f : Unit → Option β} {Q : β → Prop}
    (h : Runs (f ()) Q) : Runs (tableVerify k w >>= f) Q := by
  rw [tableVerify_ok hk h0]; exact h

theorem tableGetGeV_ok {pre : List (Ge (FeV α))} {PRE : List (Ge α)} (h : List.Forall₂ TabIs pre PRE) {w : ℕ}
    (hw : 2 ≤ w) (hl : 2 ^ (w - 2) ≤ PRE.length) {k : ℤ} (hk : DigitOk w k) (h0 : k ≠ 0) :
    Runs (tableGetGeV pre k w) (GeIs · (tableGetGe PRE k)) := by
  unfold tableGetGeV tableGetGe
  refine runs_tableVerify hk h0 ?_
  by_cases c : k > 0
  · rw [if_pos c, if_pos c]
    obtain ⟨m, hm, e, -⟩ := idx_pos hw hk c
    rw [e]
    obtain ⟨g, e, hg⟩ := forall₂_get h geGarbage (hm.trans_le hl)
    exact ⟨g, e, hg.ge⟩
  · rw [if_neg c, if_neg c]
    obtain ⟨m, hm, e, -⟩ := idx_neg hw hk h0 c
    rw [e]
    obtain ⟨g, e, hg⟩ := forall₂_get h geGarbage (hm.trans_le hl)
    exact Runs.bind (Q := fun x => x = g) ⟨g, e, rfl⟩ fun r hr => by subst hr; exact negY_ok hg

theorem geSetXYV_tab (hx : FeIs x f 4) (hy : FeIs y g 1) : Runs (geSetXYV x y) (TabIs · (geSetXY f g)) := by
  unfold geSetXYV
  have ht : GeTracked (⟨x, y, false⟩ : Ge (FeV α)) := ⟨hx.tr, hy.tr, hx.le, hy.le.trans (by omega)⟩
  refine Runs.check hx.tr.verify (Runs.check hy.tr.verify (Runs.check (geVerify_ok ht) (Runs.some ⟨⟨?_, ht⟩, hy.le⟩)))
  simp only [geErase, hx.fe, hy.fe]; rfl

theorem TabIs.py {C : Ge α} (h : TabIs c C) : FeIs c.y C.y 1 := by
  rw [← h.ge.eq]; exact ⟨rfl, h.ge.tr.y, h.y1⟩

theorem TabIs.px {C : Ge α} (h : TabIs c C) : FeIs c.x C.x 4 := by
  rw [← h.ge.eq]; exact ⟨rfl, h.ge.tr.x, h.ge.tr.xm⟩

theorem tableGetGeLambdaV_ok {pre : List (Ge (FeV α))} {PRE : List (Ge α)} (h : List.Forall₂ TabIs pre PRE)
    {aux : List (FeV α)} {AUX : List α} (hx : List.Forall₂ (FeIs · · 1) aux AUX) {w : ℕ}
    (hw : 2 ≤ w) (hl : 2 ^ (w - 2) ≤ PRE.length) (hl' : 2 ^ (w - 2) ≤ AUX.length) {k : ℤ} (hk : DigitOk w k) (h0 : k ≠ 0) :
    Runs (tableGetGeLambdaV pre aux k w) (GeIs · (tableGetGeLambda PRE AUX k)) := by
  unfold tableGetGeLambdaV tableGetGeLambda
  refine runs_tableVerify hk h0 ?_
  by_cases c : k > 0
  · rw [if_pos c, if_pos c]
    obtain ⟨m, hm, e, -⟩ := idx_pos hw hk c
    rw [e]
    obtain ⟨g, e, hg⟩ := forall₂_get h geGarbage (hm.trans_le hl)
    obtain ⟨xx, e', hxx⟩ := forall₂_get hx (setInt 0) (hm.trans_le hl')
    refine Runs.bind (Q := fun y => y = xx) ⟨xx, e', rfl⟩ fun _ hr => ?_
    subst hr
    refine Runs.bind (Q := fun y => y = g) ⟨g, e, rfl⟩ fun _ hr => ?_
    subst hr
    exact (geSetXYV_tab (hxx.mono (by omega)) hg.py).mono fun _ h => h.ge
  · rw [if_neg c, if_neg c]
    obtain ⟨m, hm, e, -⟩ := idx_neg hw hk h0 c
    rw [e]
    obtain ⟨g, e, hg⟩ := forall₂_get h geGarbage (hm.trans_le hl)
    obtain ⟨xx, e', hxx⟩ := forall₂_get hx (setInt 0) (hm.trans_le hl')
    refine Runs.bind (Q := fun y => y = xx) ⟨xx, e', rfl⟩ fun _ hr => ?_
    subst hr
    refine Runs.bind (Q := fun y => y = g) ⟨g, e, rfl⟩ fun _ hr => ?_
    subst hr
    exact (geSetXYV_tab (hxx.mono (by omega)) hg.py).bind fun r hr => negY_ok hr

theorem geFromStorageV_ok {s : ℕ × ℕ} (h : Canonical s) : Runs (geFromStorageV s : Option (Ge (FeV α))) fun r =>
    TabIs r (geFromStorage s) ∧ r.infinity = false := by
  have key : ∀ {k : ℕ}, k < p → Tracked (⟨ofStorage k, 1, true⟩ : FeV α) := fun {k} hk =>
    ⟨by show 1 ≤ 32; decide, VerifyRep.normMag (VerifyMul.storage hk), fun _ => ⟨le_rfl, VerifyMul.storage hk⟩⟩
  unfold geFromStorageV
  refine (ret_ok (key h.1) le_rfl).bind fun x hx => (ret_ok (key h.2) le_rfl).bind fun y hy => ?_
  have hx1 : x.magnitude ≤ 1 := hx.le
  have hy1 : y.magnitude ≤ 1 := hy.le
  have ht : GeTracked (⟨x, y, false⟩ : Ge (FeV α)) := ⟨hx.tr, hy.tr, by show x.magnitude ≤ 4; omega, by show y.magnitude ≤ 3; omega⟩
  refine Runs.check (geVerify_ok ht) (Runs.some ⟨⟨⟨?_, ht⟩, hy1⟩, rfl⟩)
  simp only [geErase, hx.fe, hy.fe]; rfl

theorem tableGetGeStorageV_ok {pre : ℕ → ℕ × ℕ} {w : ℕ} (hw : 2 ≤ w) (h : ∀ i < 2 ^ (w - 2), Canonical (pre i)) {k : ℤ}
    (hk : DigitOk w k) (h0 : k ≠ 0) :
    Runs (tableGetGeStorageV pre k w : Option (Ge (FeV α))) (GeIs · (tableGetGeStorage pre k)) := by
  unfold tableGetGeStorageV tableGetGeStorage
  refine runs_tableVerify hk h0 ?_
  by_cases c : k > 0
  · rw [if_pos c, if_pos c]
    obtain ⟨m, hm, e, -⟩ := idx_pos hw hk c
    rw [e]
    exact (geFromStorageV_ok (h m hm)).mono fun _ h => h.1.ge
  · rw [if_neg c, if_neg c]
    obtain ⟨m, hm, e, -⟩ := idx_neg hw hk h0 c
    rw [e]
    exact (geFromStorageV_ok (h m hm)).bind fun r hr => negY_ok hr.1

/-! ## the first loop -/

/-- The state with the checks is the state without them. -/
structure StIs (v : StraussState (FeV α)) (s : StraussState α) : Prop where
  Z : FeIs v.Z s.Z 1
  table : List.Forall₂ EntIs v.table s.table
  ps : v.ps = s.ps
  bits : v.bits = s.bits

theorem straussRescaleV_ok (no : ℕ) (ha : GejTracked a) (hz : FeIs z f 1) (h0 : normalizesToZero f = false) :
    Runs (straussRescaleV no a z) (GejIs · (if no ≠ 0 then gejRescale (gejErase a) f else gejErase a)) := by
  unfold straussRescaleV
  by_cases c : no ≠ 0
  · rw [if_pos c, if_pos c]; exact gejRescaleV_ok ha hz h0
  · rw [if_neg c, if_neg c]; exact Runs.some ⟨rfl, ha⟩

/-- The product at ecmult_impl.h:289 without the checks. -/
def auxOf (no : ℕ) (f : α) (T : List (Ge α × α)) : List (Ge α × α) :=
  match T with
  | [] => []
  | (g, r) :: rest => (g, if no ≠ 0 then FeOps.mul r f else r) :: rest

theorem straussAuxV_ok (no : ℕ) (hz : FeIs z f 1) {t : List (Ge (FeV α) × FeV α)} {T : List (Ge α × α)}
    (h : List.Forall₂ EntIs t T) : Runs (straussAuxV no z t) (List.Forall₂ EntIs · (auxOf no f T)) := by
  cases h with
  | nil => exact Runs.some .nil
  | cons h t =>
    rename_i e E rest REST
    obtain ⟨E1, E2⟩ := E
    show Runs (if no ≠ 0 then (do
      let r ← feMul e.2 z
      some ((e.1, r) :: rest)) else some (e :: rest))
      (List.Forall₂ EntIs · ((E1, if no ≠ 0 then FeOps.mul E2 f else E2) :: REST))
    by_cases c : no ≠ 0
    · rw [if_pos c, if_pos c]
      exact (feMul_ok h.z hz).bind fun r hr => Runs.some (.cons ⟨h.ge, h.inf, hr.mono (by omega)⟩ t)
    · rw [if_neg c, if_neg c]
      exact Runs.some (.cons ⟨h.ge, h.inf, h.z⟩ t)

theorem bits129 {a : Fn} (ha : Small a) : (ecmultWnaf 129 a windowA).2 ≤ 129 := by
  obtain ⟨h1, h2, h3, h4⟩ := ecmultWnaf_spec ha (w := windowA) (by decide)
  exact h2

theorem straussPrepV_ok {v : StraussState (FeV α)} {s : StraussState α} {S : StraussState Fp} {us : List (Pt × Fn)}
    (h : StIs v s) (hs : StraussLimb s S) (hi : PrepInv S us) (ha : GejTracked a) {A : Gej Fp} {P : Pt}
    (hA : GejLimb (gejErase a) A) (hP : GejRep (7 : Fp) A P) (na : Fn) :
    Runs (straussPrepV v (a, na)) (StIs · (straussPrep s (gejErase a, na))) := by
  unfold straussPrepV straussPrep
  dsimp only
  by_cases c1 : scIsZero na = true
  · rw [if_pos c1, if_pos (by rw [c1]; rfl)]; exact Runs.some h
  rw [if_neg c1]
  refine Runs.check (gejVerify_ok ha) ?_
  by_cases c2 : a.infinity = true
  · rw [if_pos c2, if_pos (show (scIsZero na || (gejErase a).infinity) = true by
      rw [show (gejErase a).infinity = true from c2, Bool.or_true])]; exact Runs.some h
  rw [if_neg c2, if_neg (show ¬(scIsZero na || (gejErase a).infinity) = true by
    rw [Bool.or_eq_true]; exact fun h => h.elim c1 c2)]
  obtain ⟨s1, s2, s3⟩ := splitLambda_spec na
  unfold straussPointV
  rw [splitLambdaV_ok]
  refine Runs.bind (Q := fun x => x = scSplitLambda na) (Runs.some rfl) fun sp hsp => ?_
  subst hsp
  refine Runs.bind (Q := fun x => x = ecmultWnaf 129 (scSplitLambda na).1 windowA)
    ⟨_, wnafV_ok s2 (by decide) (by decide), rfl⟩ fun w1 hw1 => ?_
  refine Runs.bind (Q := fun x => x = ecmultWnaf 129 (scSplitLambda na).2 windowA)
    ⟨_, wnafV_ok s3 (by decide) (by decide), rfl⟩ fun wl hwl => ?_
  subst hw1 hwl
  refine Runs.check (by simpa using bits129 s2) (Runs.check (by simpa using bits129 s3) ?_)
  have hz0 : normalizesToZero s.Z = false := by
    rw [hs.Z.toZero]
    exact decide_eq_false hi.Z_ne
  rw [h.ps, h.bits]
  have hA' : A.infinity = false := by
    have := hA.inf
    rw [← this]; exact Bool.eq_false_iff.2 c2
  have hPne : P ≠ 0 := fun e => by rw [hP.inf_iff.2 e] at hA'; cases hA'
  have ht : TableNoInf (ecmultTableSize windowA) (if s.ps.length ≠ 0 then gejRescale (gejErase a) s.Z else gejErase a) := by
    refine TableNoInf.limb (A := if s.ps.length ≠ 0 then gejRescale A S.Z else A) ?_ ?_
    · split
      · exact hA.rescale hs.Z
      · exact hA
    · have hrep : GejRep (7 : Fp) (if s.ps.length ≠ 0 then gejRescale A S.Z else A) P := by
        split
        · exact gejRescale_rep hP hi.Z_ne
        · exact hP
      exact tableNoInf_spec neg7_not_cube hrep _ (by decide) fun j hj => odd_smul_ne hPne j (lt_trans hj (by decide))
  refine (straussRescaleV_ok s.ps.length ha h.Z hz0).bind fun tmp htmp => ?_
  have hot := oddMultiplesTableV_ok (ecmultTableSize windowA) htmp.tr (by rw [htmp.eq]; exact ht)
  rw [htmp.eq] at hot
  refine hot.bind fun t ht => ?_
  refine (straussAuxV_ok s.ps.length (GejIs.pz ha) ht.1).bind fun tab htab => Runs.some ⟨ht.2, ?_, rfl, rfl⟩
  exact List.rel_append h.table htab

theorem foldV_ok : ∀ {l : List (Gej (FeV α) × Fn)}, (∀ q ∈ l, GejTracked q.1 ∧ Stands (gejErase q.1)) →
    ∀ {v : StraussState (FeV α)} {s : StraussState α} {S : StraussState Fp} {us : List (Pt × Fn)},
    StIs v s → StraussLimb s S → PrepInv S us →
    Runs (l.foldlM straussPrepV v) fun r => ∃ S' us', StIs r (l.foldl (fun s q => straussPrep s (gejErase q.1, q.2)) s) ∧
      StraussLimb (l.foldl (fun s q => straussPrep s (gejErase q.1, q.2)) s) S' ∧ PrepInv S' us'
  | [], _, _, _, _, _, h, hs, hi => Runs.some ⟨_, _, h, hs, hi⟩
  | q :: l, hl, v, s, S, us, h, hs, hi => by
    obtain ⟨hq, A, P, hA, hP⟩ := hl q (List.mem_cons_self ..)
    obtain ⟨us', hi', -⟩ := straussPrep_inv hi hP q.2
    have hs' : StraussLimb (straussPrep s (gejErase q.1, q.2)) (straussPrep S (A, q.2)) := straussPrep_limb hs ⟨hA, rfl⟩
    rw [List.foldlM_cons]
    exact (straussPrepV_ok h hs hi hq hA hP q.2).bind fun r hr =>
      foldV_ok (fun q hq => hl q (List.mem_cons_of_mem _ hq)) hr hs' hi'

/-! ## the main loop -/

variable {pre : List (Ge (FeV α))} {PRE : List (Ge α)} {aux : List (FeV α)} {AUX : List α}

/-- The digits of a point are digits. -/
def Digits (ps : StraussPoint) : Prop :=
  (∀ j, DigitOk 5 (ps.wnafNa1.getD j 0)) ∧ ∀ j, DigitOk 5 (ps.wnafNaLam.getD j 0)

theorem straussAdd1V_ok (hp : List.Forall₂ TabIs pre PRE) (hl : 8 ≤ PRE.length) (i : ℕ) {w : List ℤ × ℕ}
    (hw : ∀ j, DigitOk 5 (w.1.getD j 0)) (ha : GejTracked a) :
    Runs (straussAdd1V pre i a w) (GejIs · (if i < w.2 ∧ w.1.getD i 0 ≠ 0 then
      (gejAddGeVar (gejErase a) (tableGetGe PRE (w.1.getD i 0))).1 else gejErase a)) := by
  unfold straussAdd1V
  by_cases c : i < w.2 ∧ w.1.getD i 0 ≠ 0
  · rw [if_pos c, if_pos c]
    refine (tableGetGeV_ok hp (by decide) hl (hw i) c.2).bind fun t ht => ?_
    have := gejAddGeVarV_ok ha ht.tr false fun _ => rfl
    rw [ht.eq] at this
    exact this.bind fun s hs => Runs.some hs.1
  · rw [if_neg c, if_neg c]; exact Runs.some ⟨rfl, ha⟩

theorem straussAddLamV_ok (hp : List.Forall₂ TabIs pre PRE) (hx : List.Forall₂ (FeIs · · 1) aux AUX)
    (hl : 8 ≤ PRE.length) (hl' : 8 ≤ AUX.length) (i : ℕ) {w : List ℤ × ℕ}
    (hw : ∀ j, DigitOk 5 (w.1.getD j 0)) (ha : GejTracked a) :
    Runs (straussAddLamV pre aux i a w) (GejIs · (if i < w.2 ∧ w.1.getD i 0 ≠ 0 then
      (gejAddGeVar (gejErase a) (tableGetGeLambda PRE AUX (w.1.getD i 0))).1 else gejErase a)) := by
  unfold straussAddLamV
  by_cases c : i < w.2 ∧ w.1.getD i 0 ≠ 0
  · rw [if_pos c, if_pos c]
    refine (tableGetGeLambdaV_ok hp hx (by decide) hl hl' (hw i) c.2).bind fun t ht => ?_
    have := gejAddGeVarV_ok ha ht.tr false fun _ => rfl
    rw [ht.eq] at this
    exact this.bind fun s hs => Runs.some hs.1
  · rw [if_neg c, if_neg c]; exact Runs.some ⟨rfl, ha⟩

theorem straussAddPointsV_ok (hp : List.Forall₂ TabIs pre PRE) (hx : List.Forall₂ (FeIs · · 1) aux AUX) (i : ℕ) :
    ∀ (ps : List StraussPoint) (np : ℕ) {a : Gej (FeV α)}, GejTracked a → (∀ q ∈ ps, Digits q) →
    8 * (np + ps.length) ≤ PRE.length → 8 * (np + ps.length) ≤ AUX.length →
    Runs (straussAddPointsV pre aux i np ps a) (GejIs · (straussAddPoints PRE AUX i np ps (gejErase a)))
  | [], _, _, ha, _, _, _ => Runs.some ⟨rfl, ha⟩
  | q :: ps, np, a, ha, hd, hl, hl' => by
    have hp' := List.forall₂_drop (np * ecmultTableSize windowA) hp
    have hx' := List.forall₂_drop (np * ecmultTableSize windowA) hx
    have e8 : ecmultTableSize windowA = 8 := by decide
    have hq := hd q (List.mem_cons_self ..)
    rw [List.length_cons] at hl hl'
    have l1 : 8 ≤ (PRE.drop (np * ecmultTableSize windowA)).length := by rw [List.length_drop, e8]; omega
    have l2 : 8 ≤ (AUX.drop (np * ecmultTableSize windowA)).length := by rw [List.length_drop, e8]; omega
    unfold straussAddPointsV straussAddPoints straussAddPoint
    refine (straussAdd1V_ok hp' l1 i (w := (q.wnafNa1, q.bitsNa1)) hq.1 ha).bind fun r hr => ?_
    have h2 := straussAddLamV_ok hp' hx' l1 l2 i (w := (q.wnafNaLam, q.bitsNaLam)) hq.2 hr.tr
    rw [hr.eq] at h2
    refine h2.bind fun r hr => ?_
    have h3 := straussAddPointsV_ok hp hx i ps (np + 1) hr.tr (fun q hq => hd q (List.mem_cons_of_mem _ hq))
      (by omega) (by omega)
    rw [hr.eq] at h3
    exact h3

theorem straussAddGV_ok {tab : ℕ → ℕ × ℕ} {w : ℕ} (hw : 2 ≤ w) (ht : ∀ i < 2 ^ (w - 2), Canonical (tab i))
    (hz : FeIs z f 1) {d : List ℤ × ℕ} (hd : ∀ j, DigitOk w (d.1.getD j 0)) (i : ℕ) (ha : GejTracked a) :
    Runs (straussAddGV tab w z d i a) (GejIs · (straussAddG tab f d i (gejErase a))) := by
  unfold straussAddGV straussAddG
  by_cases c : i < d.2 ∧ d.1.getD i 0 ≠ 0
  · dsimp only
    rw [if_pos c, if_pos c]
    refine (tableGetGeStorageV_ok hw ht (hd i) c.2).bind fun t ht => ?_
    have := gejAddZinvVarV_ok ha ht.tr hz
    rw [ht.eq] at this
    exact this
  · dsimp only
    rw [if_neg c, if_neg c]; exact Runs.some ⟨rfl, ha⟩

theorem straussLoopV_ok {t : GTab} (ht : TabCanonical t) (hp : List.Forall₂ TabIs pre PRE)
    (hx : List.Forall₂ (FeIs · · 1) aux AUX) {ps : List StraussPoint} (hd : ∀ q ∈ ps, Digits q)
    (hl : 8 * ps.length ≤ PRE.length) (hl' : 8 * ps.length ≤ AUX.length) (hz : FeIs z f 1) {w1 w2 : List ℤ × ℕ}
    (h1 : ∀ j, DigitOk t.window (w1.1.getD j 0)) (h2 : ∀ j, DigitOk t.window (w2.1.getD j 0)) :
    ∀ (i : ℕ) {a : Gej (FeV α)}, GejTracked a →
    Runs (straussLoopV t pre aux ps z w1 w2 i a) (GejIs · (straussLoop t PRE AUX ps f w1 w2 i (gejErase a)))
  | 0, _, ha => Runs.some ⟨rfl, ha⟩
  | i + 1, a, ha => by
    unfold straussLoopV straussLoop
    refine (gejDoubleVarV_ok ha false).bind fun d hdd => ?_
    have g1 := straussAddPointsV_ok hp hx i ps 0 hdd.1.tr hd (by omega) (by omega)
    rw [hdd.1.eq] at g1
    refine g1.bind fun r hr => ?_
    have g2 := straussAddGV_ok ht.window2 ht.g hz h1 i hr.tr
    rw [hr.eq] at g2
    refine g2.bind fun r hr => ?_
    have g3 := straussAddGV_ok ht.window2 ht.g128 hz h2 i hr.tr
    rw [hr.eq] at g3
    refine g3.bind fun r hr => ?_
    have g4 := straussLoopV_ok ht hp hx hd hl hl' hz h1 h2 i hr.tr
    rw [hr.eq] at g4
    exact g4

theorem mapM_ok {β γ δ : Type} {R : β → γ → Prop} {S : δ → ε → Prop} {f : β → Option δ} {F : γ → ε}
    (hf : ∀ x X, R x X → Runs (f x) (S · (F X))) {l : List β} {L : List γ} (h : List.Forall₂ R l L) :
    Runs (l.mapM f) (List.Forall₂ S · (L.map F)) := by
  induction h with
  | nil => exact Runs.some .nil
  | cons h _ ih =>
    rw [List.mapM_cons]
    exact (hf _ _ h).bind fun y hy => ih.bind fun ys hys => Runs.some (.cons hy hys)

theorem wnafG_digits {w : ℕ} (hw : 2 ≤ w) (ng : Option Fn) :
    (∀ j, DigitOk w ((straussWnafG w ng).1.1.getD j 0)) ∧ ∀ j, DigitOk w ((straussWnafG w ng).2.1.getD j 0) := by
  cases ng with
  | none => exact ⟨(wok_none w).digit, (wok_none w).digit⟩
  | some k =>
    have h1 : Small (scSplit128 k).1 := .inl (by
      simp only [scSplit128]
      rw [ZMod.val_natCast_of_lt (lt_of_lt_of_le (Nat.mod_lt _ (by norm_num)) (by decide +kernel))]
      exact Nat.mod_lt _ (by norm_num))
    have h2 : Small (scSplit128 k).2 := .inl (by
      have hk : k.val < 2 ^ 256 := lt_trans (ZMod.val_lt k) (by decide +kernel)
      have hd : k.val / 2 ^ 128 < 2 ^ 128 := by omega
      simp only [scSplit128]
      rw [ZMod.val_natCast_of_lt (lt_trans hd (by decide +kernel))]
      exact hd)
    exact ⟨(wok_wnaf h1 hw).digit, (wok_wnaf h2 hw).digit⟩

theorem globalzLoop_length {β : Type} [FeOps β] : ∀ (t : List (Ge β × β)) (z : β) (acc : List (Ge β)),
    (globalzLoop t z acc).length = t.length + acc.length
  | [], _, _ => by simp [globalzLoop]
  | (a, r) :: t, z, acc => by
    rw [globalzLoop, globalzLoop_length t]
    simp only [List.length_cons]; omega

theorem tableSetGlobalz_length {β : Type} [FeOps β] (t : List (Ge β × β)) :
    (tableSetGlobalz t).length = t.length := by
  have h := List.length_reverse (as := t)
  unfold tableSetGlobalz
  generalize t.reverse = r at h
  match r, h with
  | [], h => simpa using h
  | (a, z) :: rest, h =>
    dsimp only
    rw [globalzLoop_length, ← h]; simp

theorem straussWithV_ok {t : GTab} (ht : TabCanonical t) {pts : List (Gej (FeV α) × Fn)}
    (hq : ∀ q ∈ pts, GejTracked q.1 ∧ Stands (gejErase q.1)) (ng : Option Fn) :
    Runs (straussWithV t pts ng) (GejIs · (straussWith t (pts.map fun q => (gejErase q.1, q.2)) ng)) := by
  have hf : ∀ s : StraussState α, (pts.map fun q => (gejErase q.1, q.2)).foldl straussPrep s =
      pts.foldl (fun s q => straussPrep s (gejErase q.1, q.2)) s := fun s => List.foldl_map
  unfold straussWithV straussWith
  rw [hf]
  refine one_ok.bind fun Z hZ => ?_
  refine (foldV_ok hq (v := ⟨Z, [], [], 0⟩) (s := ⟨setInt 1, [], [], 0⟩) (S := ⟨setInt 1, [], [], 0⟩) (us := [])
    ⟨hZ, .nil, rfl, rfl⟩ ⟨Rep.int 1, .nil, rfl, rfl⟩ prepInv_init).bind fun v hv => ?_
  obtain ⟨S, us, hv, hs, hi⟩ := hv
  generalize pts.foldl (fun s q => straussPrep s (gejErase q.1, q.2)) ⟨setInt 1, [], [], 0⟩ = s at *
  refine (tableSetGlobalzV_ok hv.table).bind fun pre hpre => ?_
  have hmap := mapM_ok (R := TabIs) (S := (FeIs · · 1)) (f := fun g => feMul g.x (feConstV constBeta))
    (F := fun g => FeOps.mul g.x (feConst constBeta))
    (fun x X h => feMul_ok h.px (feConst_ok (by decide +kernel))) hpre
  refine hmap.bind fun aux haux => ?_
  refine Runs.bind (Q := fun x => x = straussWnafG t.window ng)
    ⟨_, straussWnafGV_ok ht.window2 (ht.window24.trans (by decide)) ng, rfl⟩ fun wg hwg => ?_
  subst hwg
  refine gejInfinityV_ok.bind fun r hr => ?_
  dsimp only
  rw [hv.bits, hv.ps]
  have hlen : 8 * s.ps.length ≤ (tableSetGlobalz s.table).length := by
    have l1 := (tableSetGlobalz_limb hs.table).length_eq
    have l2 := tableSetGlobalz_length S.table
    rw [l1, l2, hi.len, hs.ps, hi.ps.length_eq]
  have hdig : ∀ q ∈ s.ps, Digits q := by
    intro q hq
    rw [hs.ps] at hq
    obtain ⟨u, hu⟩ := forall₂_left hi.ps hq
    obtain ⟨-, -, -, k1, k2, -, w1, w2⟩ := hu
    exact ⟨w1.digit, w2.digit⟩
  obtain ⟨d1, d2⟩ := wnafG_digits ht.window2 ng
  have g := straussLoopV_ok ht hpre haux hdig hlen (by simpa using hlen) hv.Z d1 d2
    (if (straussWnafG t.window ng).2.2 > (if (straussWnafG t.window ng).1.2 > s.bits then (straussWnafG t.window ng).1.2 else s.bits) then
      (straussWnafG t.window ng).2.2 else (if (straussWnafG t.window ng).1.2 > s.bits then (straussWnafG t.window ng).1.2 else s.bits)) hr.tr
  rw [hr.eq] at g
  refine g.bind fun r hr => ?_
  rw [← hr.eq]
  unfold straussFinishV
  cases hri : r.infinity
  · rw [if_pos (by rfl), if_pos (show (!(gejErase r).infinity) = true by simp [gejErase, hri])]
    refine (feMul_ok (GejIs.pz hr.tr) hv.Z).bind fun z hz => Runs.some ⟨?_, ?_⟩
    · simp only [gejErase, hz.fe, hri]
    · exact ⟨hr.tr.x, hr.tr.y, hz.tr, hr.tr.xm, hr.tr.ym, hz.le⟩
  · rw [if_neg (by decide), if_neg (show ¬(!(gejErase r).infinity) = true by simp [gejErase, hri])]
    exact Runs.some ⟨rfl, hr.tr⟩

end Model.Verify
end Secp
