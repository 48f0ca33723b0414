import Verif.Proof.VerifyMul
import Verif.Proof.EcmultXonly
import Verif.Model.Limb.Ellswift

/-!
# The checks of a `VERIFY` build hold in the constant-time multiplications
-/

namespace Secp.Model.Verify
open Secp FeOps LimbRep

variable {α : Type} [FeOps α] [FeMem α] [LimbRep α] [FeCheck α] [Bounds α] [VerifyRep α] [Value α] [VerifyMul α]
variable {a b : Gej (FeV α)} {c d : Ge (FeV α)} {x y z : FeV α} {f g h : α} {m k l : ℕ} {i : Bool}
variable {pre preL : List (Ge (FeV α))} {PRE PREL : List (Ge α)}

/-! ## any point -/

theorem constTableGetLoop_inf {β : Type} [FeOps β] (pre : List (Ge β)) (index : ℕ) : ∀ k : ℕ,
    (constTableGetLoop pre index k).infinity = false
  | 0 => rfl
  | k + 1 => constTableGetLoop_inf pre index k

theorem constTableGetLoopV_ok (hp : List.Forall₂ TabIs pre PRE) (index : ℕ) : ∀ (k : ℕ), k < PRE.length →
    Runs (constTableGetLoopV pre index k) (TabIs · (constTableGetLoop PRE index k))
  | 0, hk => by
    obtain ⟨g, e, hg⟩ := forall₂_get hp geGarbage hk
    unfold constTableGetLoopV constTableGetLoop
    refine Runs.bind (Q := fun x => x = g) ⟨g, e, rfl⟩ fun _ hr => Runs.some ?_
    subst hr
    refine ⟨⟨?_, hg.ge.tr.x, hg.ge.tr.y, hg.ge.tr.xm, hg.ge.tr.ym⟩, hg.y1⟩
    rw [← hg.ge.eq]; rfl
  | k + 1, hk => by
    obtain ⟨g, e, hg⟩ := forall₂_get hp geGarbage hk
    unfold constTableGetLoopV constTableGetLoop
    refine (constTableGetLoopV_ok hp index k (by omega)).bind fun r hr => ?_
    refine Runs.bind (Q := fun x => x = g) ⟨g, e, rfl⟩ fun _ hr' => ?_
    subst hr'
    refine (feCmov_ok hr.px hg.px (k + 1 == index)).bind fun x hx => ?_
    refine (feCmov_ok hr.py hg.py (k + 1 == index)).bind fun y hy => Runs.some ?_
    have hinf : (constTableGetLoop PRE index k).infinity = false := constTableGetLoop_inf PRE index k
    refine ⟨⟨?_, hx.tr, hy.tr, hx.le.trans (by omega), hy.le.trans (by omega)⟩, hy.le.trans (by omega)⟩
    simp only [geErase, hx.fe, hy.fe, hinf]

theorem constTableGetGeV_ok (hp : List.Forall₂ TabIs pre PRE) (hl : 16 ≤ PRE.length) {k : ℕ} (hk : k < 32) :
    Runs (constTableGetGeV pre k) fun r => GeIs r (constTableGetGe PRE k) ∧ r.infinity = false := by
  unfold constTableGetGeV constTableGetGe
  refine Runs.check (decide_eq_true hk) (Runs.check ?_ ?_)
  · rw [decide_eq_true_eq]
    exact lt_of_le_of_lt Nat.and_le_right (by decide)
  refine (constTableGetLoopV_ok hp _ (constTableSize - 1) (lt_of_lt_of_le (by decide) hl)).bind fun r hr => ?_
  refine (feNegate_ok hr.py 1).bind fun ny hn => (feCmov_ok hr.py hn _).bind fun y hy => Runs.some ⟨⟨?_, ?_⟩, rfl⟩
  · dsimp only
    rw [← hr.ge.eq] at hy ⊢
    simp only [geErase, hy.fe]
  · exact ⟨hr.ge.tr.x, hy.tr, hr.ge.tr.xm, hy.le.trans (by omega)⟩

theorem gejDoubleNV_ok : ∀ (k : ℕ) {a : Gej (FeV α)}, GejTracked a →
    Runs (gejDoubleNV a k) (GejIs · (gejDoubleN (gejErase a) k))
  | 0, _, h => Runs.some ⟨rfl, h⟩
  | k + 1, a, h => by
    unfold gejDoubleNV gejDoubleN
    refine (gejDoubleV_ok h).bind fun r hr => ?_
    have := gejDoubleNV_ok k hr.tr
    rwa [hr.eq] at this

theorem constFirstV_ok (group : ℕ) (ha : GejTracked a) (hc : GeTracked c) (hi : c.infinity = false) :
    Runs (constFirstV group a c) (GejIs · (if group = constGroups - 1 then gejSetGe (geErase c)
      else gejAddGe (gejDoubleN (gejErase a) constGroupSize) (geErase c))) := by
  unfold constFirstV
  by_cases h : group = constGroups - 1
  · rw [if_pos h, if_pos h]; exact gejSetGeV_ok hc
  · rw [if_neg h, if_neg h]
    refine (gejDoubleNV_ok constGroupSize ha).bind fun r hr => ?_
    have := gejAddGeV_ok hr.tr hc hi
    rwa [hr.eq] at this

theorem constLoopV_ok (hp : List.Forall₂ TabIs pre PRE) (hL : List.Forall₂ TabIs preL PREL) (hl : 16 ≤ PRE.length)
    (hl' : 16 ≤ PREL.length) (v1 v2 : Fn) : ∀ (k : ℕ) {a : Gej (FeV α)}, k ≤ constGroups → GejTracked a →
    Runs (constLoopV pre preL v1 v2 k a) (GejIs · (constLoop PRE PREL v1 v2 k (gejErase a)))
  | 0, _, _, h => Runs.some ⟨rfl, h⟩
  | k + 1, a, hk, h => by
    have hg : constGroups = 26 := by decide
    have hs : constGroupSize = 5 := rfl
    have lt : ∀ v : Fn, scGetBits v (k * constGroupSize) constGroupSize < 32 := fun v => Nat.mod_lt _ (by decide)
    unfold constLoopV constLoop
    refine Runs.bind (Q := fun x => x = scGetBits v1 (k * constGroupSize) constGroupSize)
      ⟨_, getBitsVarV_ok _ (by decide) (by decide) (by rw [hs]; omega), rfl⟩ fun _ h1 => ?_
    refine Runs.bind (Q := fun x => x = scGetBits v2 (k * constGroupSize) constGroupSize)
      ⟨_, getBitsVarV_ok _ (by decide) (by decide) (by rw [hs]; omega), rfl⟩ fun _ h2 => ?_
    subst h1 h2
    refine (constTableGetGeV_ok hp hl (lt v1)).bind fun t ht => ?_
    have g1 := constFirstV_ok k h ht.1.tr ht.2
    rw [ht.1.eq] at g1
    refine g1.bind fun r hr => (constTableGetGeV_ok hL hl' (lt v2)).bind fun t ht => ?_
    have g2 := gejAddGeV_ok hr.tr ht.1.tr ht.2
    rw [ht.1.eq, hr.eq] at g2
    refine g2.bind fun r hr => ?_
    have g3 := constLoopV_ok hp hL hl hl' v1 v2 k (by omega) hr.tr
    rwa [hr.eq] at g3

theorem TabIs.mulLambda {C : Ge α} (h : TabIs c C) : Runs (geMulLambdaV c) (TabIs · (geMulLambda C)) := by
  have e := h.ge.eq
  subst e
  unfold geMulLambdaV
  refine Runs.check (geVerify_ok h.ge.tr) ?_
  refine (feMul_ok (GeIs.px h.ge.tr) (feConst_ok (by decide +kernel))).bind fun x hx => ?_
  have ht : GeTracked { c with x := x } := ⟨hx.tr, h.ge.tr.y, hx.le.trans (by omega), h.ge.tr.ym⟩
  refine Runs.check (geVerify_ok ht) (Runs.some ⟨⟨?_, ht⟩, h.y1⟩)
  simp only [geErase, hx.fe]; rfl

/-- The limbs stand for a point of the curve or of a curve isomorphic to it. -/
def GeStands (g : Ge α) : Prop :=
  ∃ (A : Ge Fp) (u : Fp) (hu : u ≠ 0) (P : Pt), GeLimb g A ∧ GeRep (7 * u ^ 6) A (iso neg7_not_cube hu P)

theorem GeTracked.limb (h : GeTracked c) : ∃ A, GeLimb (geErase c) A := by
  obtain ⟨x, hx⟩ := (GeIs.px h).rep
  obtain ⟨y, hy⟩ := (GeIs.py h).rep
  exact ⟨⟨x, y, c.infinity⟩, hx, hy, rfl⟩

theorem GeOnCurve.stands (h : GeTracked c) (hc : GeOnCurve (geErase c)) : GeStands (geErase c) := by
  obtain ⟨A, hA⟩ := h.limb
  have key : ∀ P : Pt, GeRep (7 : Fp) A P → GeStands (geErase c) := fun P hP => by
    refine ⟨A, 1, one_ne_zero, P, hA, ?_⟩
    rw [iso_rep_ge]
    have := gejSetGe_rep hP
    unfold gejSetGe at this
    rwa [show (setInt 1 : Fp) = ((1 : ℕ) : Fp) from rfl, Nat.cast_one] at this
  cases hi : A.infinity
  · rcases hc with hc | hc
    · rw [hA.inf, hi] at hc; cases hc
    · rw [← VerifyMul.value hA.x, ← VerifyMul.value hA.y] at hc
      obtain ⟨hn, -⟩ := exists_pt hc
      exact key (.some _ _ hn) (GeRep.intro hi rfl rfl)
  · exact key 0 (by unfold GeRep; rw [hi]; rfl)

theorem constTableNoInf {A : Ge Fp} {u : Fp} (hu : u ≠ 0) {P : Pt}
    (ha : GeRep (7 * u ^ 6) A (iso neg7_not_cube hu P)) (hi : A.infinity = false) :
    TableNoInf constTableSize (gejSetGe A) := by
  have hP : P ≠ 0 := by
    rintro rfl
    rw [map_zero] at ha
    rw [ha.inf_iff.2 rfl] at hi; cases hi
  exact tableNoInf_spec (iso_ntt neg7_not_cube hu) (gejSetGe_rep ha) constTableSize (by decide) fun j hj h0 => by
    rw [← map_nsmul, iso_eq_zero] at h0
    exact odd_smul_ne hP j (lt_trans hj (by decide)) h0

theorem ecmultConstV_ok (hc : GeTracked c) (hs : GeStands (geErase c)) (q : Fn) :
    Runs (ecmultConstV c q) (GejIs · (ecmultConst (geErase c) q)) := by
  unfold ecmultConstV ecmultConst
  refine Runs.check (geVerify_ok hc) ?_
  cases hi : c.infinity
  swap
  · rw [if_pos rfl, if_pos (show (geErase c).infinity = true from hi)]; exact gejInfinityV_ok
  rw [if_neg (by decide), if_neg (show ¬(geErase c).infinity = true by simp [geErase, hi])]
  obtain ⟨A, u, hu, P, hA, hP⟩ := hs
  have hn : TableNoInf constTableSize (gejSetGe (geErase c)) :=
    TableNoInf.limb hA.gej (constTableNoInf hu hP (hA.inf.symm.trans hi))
  unfold ecmultConstMainV constOddMultiplesTableGlobalzV constOddMultiplesTableGlobalz
  dsimp only
  generalize scHalf (q + scConst constK) = s
  obtain ⟨s1, s2, s3⟩ := splitLambda_spec s
  have v1 := small_add_offset s2
  have v2 := small_add_offset s3
  rw [splitLambdaV_ok]
  refine Runs.bind (Q := fun x => x = scSplitLambda s) (Runs.some rfl) fun sp hsp => ?_
  subst hsp
  refine Runs.check (by rw [fits129_ok v1, fits129_ok v2]; rfl) ?_
  refine (gejSetGeV_ok hc).bind fun r hr => ?_
  have ho := oddMultiplesTableV_ok constTableSize hr.tr (by rw [hr.eq]; exact hn)
  rw [hr.eq] at ho
  have hl : (oddMultiplesTable constTableSize (gejSetGe (geErase c))).1.length = 16 := by
    rw [(oddMultiplesTable_limb hA.gej constTableSize).1.length_eq]
    have hi' : A.infinity = false := hA.inf.symm.trans hi
    have hP0 : P ≠ 0 := by
      rintro rfl
      rw [map_zero] at hP
      rw [hP.inf_iff.2 rfl] at hi'; cases hi'
    exact (oddMultiplesTable_spec (iso_ntt neg7_not_cube hu) (gejSetGe_rep hP) constTableSize (by decide)
      fun j hj h0 => by
        rw [← map_nsmul, iso_eq_zero] at h0
        exact odd_smul_ne hP0 j (lt_trans hj (by decide)) h0).1
  have hgl : Runs (do
      let t ← oddMultiplesTableV constTableSize r
      let pre ← tableSetGlobalzV t.1
      some (pre, t.2)) fun t =>
      List.Forall₂ TabIs t.1 (tableSetGlobalz (oddMultiplesTable constTableSize (gejSetGe (geErase c))).1) ∧
        FeIs t.2 (oddMultiplesTable constTableSize (gejSetGe (geErase c))).2 1 :=
    ho.bind fun t ht => (tableSetGlobalzV_ok ht.1).bind fun pre hp => Runs.some ⟨hp, ht.2⟩
  refine hgl.bind fun t ht => ?_
  have hlen := tableSetGlobalz_length (oddMultiplesTable constTableSize (gejSetGe (geErase c))).1
  rw [hl] at hlen
  generalize oddMultiplesTable constTableSize (gejSetGe (geErase c)) = T at *
  refine (mapM_ok (S := TabIs) (F := geMulLambda) (fun x X h => TabIs.mulLambda h) ht.1).bind fun preL hpreL => ?_
  have g := constLoopV_ok ht.1 hpreL (by rw [hlen]) (by rw [List.length_map, hlen])
    ((scSplitLambda s).1 + scConst constSOffset) ((scSplitLambda s).2 + scConst constSOffset) constGroups le_rfl hr.tr
  rw [hr.eq] at g
  refine g.bind fun r hr => (feMul_ok (GejIs.pz hr.tr) ht.2).bind fun z hz => Runs.some ⟨?_, ?_⟩
  · rw [← hr.eq] 
    simp only [gejErase, hz.fe]
  · exact ⟨hr.tr.x, hr.tr.y, hz.tr, hr.tr.xm, hr.tr.ym, hz.le⟩

/-! ## x-only -/

theorem xonlyOnCurveV_ok (known : Bool) (hx : FeIs x f m) (hm : m ≤ 31 := by omega) :
    Runs (xonlyOnCurveV known (some x)) (· = (known || FeMem.isSquareVar f)) := by
  unfold xonlyOnCurveV
  cases known
  · rw [if_neg (by decide), Bool.false_or]
    exact feIsSquareVarV_ok hx hm
  · exact Runs.some rfl

/-- The denominator of the fraction, `1` if absent. -/
def denOf (d : Option (FeV α)) : Fp := match d with
  | some d => ((Value.nat d.fe : ℕ) : Fp)
  | none => 1

/-- What the code computes as `g`, and whether it goes on. -/
def polyOf (n : α) (d : Option α) (known : Bool) : α × Bool :=
  let g := sqr n
  let g := mul g n
  match d with
    | some d =>
      let b := sqr d
      let b := mulInt b curveB
      let b := mul b d
      let g := add g b
      let c := mul g d
      (g, known || FeMem.isSquareVar c)
    | none =>
      let g := addInt g curveB
      (g, known || FeMem.isSquareVar g)

theorem xonlyPolyV_ok (hx : FeIs x f 8) {D : Option (FeV α)} (hD : ∀ d ∈ D, FeIs d d.fe 8)
    (h0 : denOf D ≠ 0) (known : Bool) : Runs (xonlyPolyV x D known) fun r =>
      FeIs r.1 (polyOf f (D.map (·.fe)) known).1 2 ∧ r.2 = (polyOf f (D.map (·.fe)) known).2 ∧
      Rep (polyOf f (D.map (·.fe)) known).1 2 (((Value.nat f : ℕ) : Fp) ^ 3 + 7 * denOf D ^ 3) := by
  obtain ⟨N, hN⟩ := hx.rep
  have eN := VerifyMul.value hN
  have g1 := hN.sqr'.mul' hN
  cases D with
  | none =>
    unfold xonlyPolyV polyOf
    refine (feSqr_ok hx).bind fun g hg => (feMul_ok hg hx).bind fun g hg => (feAddInt_ok hg curveB).bind fun g hg => ?_
    refine (xonlyOnCurveV_ok known hg).bind fun ok hok => Runs.some ⟨hg, hok, ?_⟩
    have g2 : Rep _ 2 _ := g1.addInt' curveB
    rw [← eN]
    have e : addInt (mul (sqr N) N) curveB = N ^ 3 + 7 * denOf (none : Option (FeV α)) ^ 3 := by
      simp only [FeOps.mul, FeOps.sqr, FeOps.addInt, curveB, denOf]; push_cast; ring
    rw [← e]; exact g2
  | some d =>
    have hd := hD d rfl
    obtain ⟨V, hV⟩ := hd.rep
    have eV := VerifyMul.value hV
    have b := (hV.sqr'.mulInt' curveB (by unfold curveB; omega)).mul' hV (by unfold curveB; omega)
    have g2 : Rep _ 2 _ := g1.add' b
    unfold xonlyPolyV polyOf
    refine (feSqr_ok hx).bind fun g hg => (feMul_ok hg hx).bind fun g hg => ?_
    refine (feNormalizesToZero_ok hd).bind fun z hz => Runs.check ?_ ?_
    · subst hz
      rw [hV.toZero, eV, Bool.not_eq_true']
      refine decide_eq_false ?_
      exact h0
    refine (feSqr_ok hd).bind fun b hb => Runs.check (by decide) ?_
    refine (feMulInt_ok hb curveB (by decide) (by decide)).bind fun b hb => ?_
    refine (feMul_ok hb hd (by decide)).bind fun b hb => (feAdd_ok hg hb).bind fun g hg => ?_
    obtain ⟨c, ec, hc⟩ := feMul_ok hg hd
    rw [ec]
    refine (xonlyOnCurveV_ok known hc).bind fun ok hok => Runs.some ⟨hg, hok, ?_⟩
    rw [← eN]
    have e : add (mul (sqr N) N) (mul (mulInt (sqr V) curveB) V) = N ^ 3 + 7 * denOf (some d) ^ 3 := by
      simp only [FeOps.mul, FeOps.sqr, FeOps.add, FeOps.mulInt, curveB, denOf, ← eV]; push_cast; ring
    rw [← e]; exact g2

theorem xonlyDenV_ok (hx : FeIs x f 1) {D : Option (FeV α)} (hD : ∀ d ∈ D, FeIs d d.fe 8) :
    Runs (xonlyDenV x D) (FeIs · (match D.map (·.fe) with | some d => mul f d | none => f) 1) := by
  cases D with
  | none => exact Runs.some hx
  | some d => exact feMul_ok hx (hD d rfl)

theorem xonlyMulV_ok (hx : FeIs x f 8) {D : Option (FeV α)} (hD : ∀ d ∈ D, FeIs d d.fe 8) (h0 : denOf D ≠ 0)
    {q : Fn} (hq : q ≠ 0) (hy : FeIs y g 2)
    (hg : Rep g 2 (((Value.nat f : ℕ) : Fp) ^ 3 + 7 * denOf D ^ 3)) {w : Fp}
    (hw : w ^ 2 = (((Value.nat f : ℕ) : Fp) / denOf D) ^ 3 + 7) :
    Runs (xonlyMulV x D q y) (FeIs · (mul (ecmultConst ⟨mul g f, sqr g, false⟩ q).x
      (inv (match D.map (·.fe) with
        | some d => mul (mul (sqr (ecmultConst ⟨mul g f, sqr g, false⟩ q).z) g) d
        | none => mul (sqr (ecmultConst ⟨mul g f, sqr g, false⟩ q).z) g))) 1) := by
  obtain ⟨N, hN⟩ := hx.rep
  have eN := VerifyMul.value hN
  rw [← eN] at hg hw
  generalize denOf D = V at *
  obtain ⟨hn, -⟩ := exists_pt hw
  have hw0 := neg7_not_cube.y_ne hw
  generalize hG : N ^ 3 + 7 * V ^ 3 = G at hg
  have hgy : G = w ^ 2 * V ^ 3 := by rw [hw, ← hG]; field_simp
  have hv : w * V ^ 2 ≠ 0 := mul_ne_zero hw0 (pow_ne_zero 2 h0)
  have hP : GeRep (7 * (w * V ^ 2) ^ 6) (⟨mul G N, sqr G, false⟩ : Ge Fp)
      (iso neg7_not_cube hv (.some _ _ hn)) := by
    rw [iso_rep_ge]
    apply GejRep.intro rfl hv
    · show G * N = _
      rw [hgy]; field_simp
    · show G * G = _
      rw [hgy]; field_simp
  have hL : GeLimb (⟨mul g f, sqr g, false⟩ : Ge α) ⟨mul G N, sqr G, false⟩ :=
    ⟨(hg.mul' hN).mono (by omega), hg.sqr'.mono (by omega), rfl⟩
  have hr := ecmultConst_iso_rep hv hP q
  have hl := ecmultConst_limb hL q
  have hne : q • (.some _ _ hn : Pt) ≠ 0 := by
    intro h
    rcases smul_eq_zero_iff.1 h with h | h
    · exact hq h
    · exact absurd h (WeierstrassCurve.Affine.Point.some_ne_zero _)
  have hi : (ecmultConst (⟨mul g f, sqr g, false⟩ : Ge α) q).infinity = false := by
    rw [hl.inf]
    by_contra hi
    have := hr.inf_iff.1 (by simpa using hi)
    rw [iso_eq_zero] at this
    exact hne this
  unfold xonlyMulV
  refine (feMul_ok hy hx).bind fun px hpx => (feSqr_ok hy).bind fun py hpy => ?_
  refine Runs.check ?_ ?_
  · unfold scIsZero
    simpa using hq
  have ht : GeTracked (⟨px, py, false⟩ : Ge (FeV α)) := ⟨hpx.tr, hpy.tr, hpx.le.trans (by omega), hpy.le.trans (by omega)⟩
  have he : geErase (⟨px, py, false⟩ : Ge (FeV α)) = ⟨mul g f, sqr g, false⟩ := by simp only [geErase, hpx.fe, hpy.fe]
  have hm := ecmultConstV_ok ht (by rw [he]; exact ⟨_, _, hv, _, hL, hP⟩) q
  rw [he] at hm
  refine hm.bind fun rj hrj => Runs.check (gejVerify_ok hrj.tr) (Runs.check (by have := hrj.inf hi; rw [this]; rfl) ?_)
  have e := hrj.eq
  generalize ecmultConst (⟨mul g f, sqr g, false⟩ : Ge α) q = R at *
  subst e
  refine (feSqr_ok (GejIs.pz hrj.tr)).bind fun i hi => (feMul_ok hi hy).bind fun i hi => ?_
  refine (xonlyDenV_ok hi hD).bind fun i hi => (feInv_ok hi).bind fun i hi => ?_
  exact feMul_ok (GejIs.px hrj.tr) hi

theorem ecmultConstXonlyV_ok (hx : FeIs x f 8) {D : Option (FeV α)} (hD : ∀ d ∈ D, FeIs d d.fe 8) (h0 : denOf D ≠ 0)
    {q : Fn} (hq : q ≠ 0) {known : Bool}
    (hk : known = true → ∃ w : Fp, w ^ 2 = (((Value.nat f : ℕ) : Fp) / denOf D) ^ 3 + 7) :
    Runs (ecmultConstXonlyV x D q known) fun r =>
      Option.Rel (FeIs · · 1) r (Limb.ecmultConstXonly f (D.map (·.fe)) q known) := by
  have hp := xonlyPolyV_ok hx hD h0 known
  have e : Limb.ecmultConstXonly f (D.map (·.fe)) q known =
      (fun g : α × Bool => if !g.2 then none else
        some (mul (ecmultConst ⟨mul g.1 f, sqr g.1, false⟩ q).x
      (inv (match D.map (·.fe) with
        | some d => mul (mul (sqr (ecmultConst ⟨mul g.1 f, sqr g.1, false⟩ q).z) g.1) d
        | none => mul (sqr (ecmultConst ⟨mul g.1 f, sqr g.1, false⟩ q).z) g.1))))
        (polyOf f (D.map (·.fe)) known) := by
    cases D <;> rfl
  have hs : (polyOf f (D.map (·.fe)) known).2 = true →
      ∃ w : Fp, w ^ 2 = (((Value.nat f : ℕ) : Fp) / denOf D) ^ 3 + 7 := by
    intro ho
    cases known
    · obtain ⟨N, hN⟩ := hx.rep
      have eN := VerifyMul.value hN
      rw [← square_iff_on_curve h0]
      obtain ⟨_, -, -, -, hr⟩ := hp
      cases D with
      | none =>
        have e := VerifyRep.isSquare (Rep.mono hr (show 2 ≤ 31 by omega))
        rw [show denOf (none : Option (FeV α)) = 1 from rfl, mul_one]
        exact e.symm.trans ho
      | some d =>
        obtain ⟨V, hV⟩ := (hD d rfl).rep
        have eV := VerifyMul.value hV
        have := hr.mul' hV
        have e := VerifyRep.isSquare (Rep.mono this (show 1 ≤ 31 by omega))
        rw [show (V : Fp) = denOf (some d) from eV] at e
        exact e.symm.trans ho
    · exact hk rfl
  rw [e]
  unfold ecmultConstXonlyV
  refine hp.bind fun g hg => ?_
  dsimp only
  rw [hg.2.1]
  cases ho : (polyOf f (D.map (·.fe)) known).2
  · exact Runs.some .none
  · obtain ⟨w, hw⟩ := hs ho
    exact (xonlyMulV_ok hx hD h0 hq hg.1 hg.2.2 hw).bind fun r hr => Runs.some (.some hr)

end Secp.Model.Verify
