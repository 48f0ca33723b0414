import Verif.Model.ComputeTable
import Verif.Proof.EcmultGen
import Verif.Proof.GroupAll
import Verif.Proof.Strauss
import Mathlib.Data.List.GetD

/-! The programs that compute the static tables: their output for any base point. -/

namespace Secp
open Model FeOps WeierstrassCurve Finset

/-- The table entry `q` consists of the affine coordinates, below `p`, of the point `P`. -/
def AffineOf (q : ℕ × ℕ) (P : Pt) : Prop :=
  q.1 < p ∧ q.2 < p ∧ ∃ h : (curve (7 : Fp)).Nonsingular (q.1 : Fp) (q.2 : Fp), P = .some _ _ h

theorem AffineOf.entry {q : ℕ × ℕ} {P : Pt} (h : AffineOf q P) : Entry q P := by
  obtain ⟨_, _, hn, rfl⟩ := h
  exact GeRep.intro rfl rfl rfl

theorem AffineOf.of_entry {q : ℕ × ℕ} {P : Pt} (h : Entry q P) (h1 : q.1 < p) (h2 : q.2 < p) :
    AffineOf q P := by
  obtain ⟨hn, rfl⟩ := h.elim rfl
  exact ⟨h1, h2, hn, rfl⟩

theorem AffineOf.unique {q r : ℕ × ℕ} {P : Pt} (hq : AffineOf q P) (hr : AffineOf r P) : q = r := by
  obtain ⟨q1, q2, hn, e⟩ := hq
  obtain ⟨r1, r2, hn', e'⟩ := hr
  rw [e] at e'
  injection e' with ex ey
  have hx := (ZMod.natCast_eq_natCast_iff' _ _ _).1 ex
  have hy := (ZMod.natCast_eq_natCast_iff' _ _ _).1 ey
  rw [Nat.mod_eq_of_lt q1, Nat.mod_eq_of_lt r1] at hx
  rw [Nat.mod_eq_of_lt q2, Nat.mod_eq_of_lt r2] at hy
  exact Prod.ext hx hy

theorem geToStorage_affine {a : Ge Fp} {P : Pt} (h : GeRep 7 a P) (hP : P ≠ 0) :
    AffineOf (geToStorage a) P := by
  have hi : a.infinity = false := by
    cases hi : a.infinity
    · rfl
    · exact absurd (h.inf_iff.1 hi) hP
  obtain ⟨hn, rfl⟩ := h.elim hi
  refine ⟨ZMod.val_lt _, ZMod.val_lt _, ?_⟩
  have e1 : ((geToStorage a).1 : Fp) = a.x := ZMod.natCast_zmod_val a.x
  have e2 : ((geToStorage a).2 : Fp) = a.y := ZMod.natCast_zmod_val a.y
  rw [e1, e2]
  exact ⟨hn, rfl⟩

/-! ### The tables of odd multiples -/

theorem computeTableLoop_length (d : Ge Fp) : ∀ (k : ℕ) (g : Ge Fp),
    (computeTableLoop d k g).length = k
  | 0, _ => rfl
  | k + 1, g => by rw [computeTableLoop]; simp [computeTableLoop_length d k]

theorem computeTableLoop_spec {d : Ge Fp} {D : Pt} (hd : GeRep 7 d D) : ∀ (k : ℕ) (g : Ge Fp) (Q : Pt),
    GeRep 7 g Q → (∀ j < k, Q + (j + 1) • D ≠ 0) →
      ∀ j < k, AffineOf ((computeTableLoop d k g).getD j (0, 0)) (Q + (j + 1) • D) := by
  intro k
  induction k with
  | zero => intro g Q _ _ j hj; omega
  | succ k ih =>
    intro g Q hg hne j hj
    rw [computeTableLoop]
    have h1 := geSetGejVar_rep (gejAddGeVar_rep neg7_not_cube (gejSetGe_rep hg) hd)
    cases j with
    | zero =>
      rw [List.getD_cons_zero, zero_add, one_smul]
      refine geToStorage_affine h1 ?_
      have := hne 0 (by omega)
      rwa [zero_add, one_smul] at this
    | succ j =>
      rw [List.getD_cons_succ]
      have e : ∀ i : ℕ, Q + D + (i + 1) • D = Q + (i + 1 + 1) • D := by
        intro i; rw [succ_nsmul D (i + 1), add_assoc, add_comm D]
      have := ih _ (Q + D) h1 (fun i hi => by rw [e]; exact hne (i + 1) (by omega)) j (by omega)
      rwa [e] at this

theorem odd_smul_ne_zero {P : Pt} (hP : P ≠ 0) {k : ℕ} (hk : k < n) (h0 : k ≠ 0) : k • P ≠ 0 := by
  rw [← natCast_smul, Ne, smul_eq_zero_iff, not_or]
  refine ⟨fun h => ?_, hP⟩
  rw [ZMod.natCast_eq_zero_iff] at h
  exact Nat.not_dvd_of_pos_of_lt (by omega) hk h

theorem ecmultComputeTable_length (w : ℕ) (g : Gej Fp) :
    (ecmultComputeTable w g).length = 2 ^ (w - 2) := by
  unfold ecmultComputeTable
  rw [List.length_cons, computeTableLoop_length, ecmultTableSize]
  exact Nat.sub_add_cancel (Nat.two_pow_pos _)

theorem ecmultComputeTable_spec {w : ℕ} (hw : w ≤ 256) {g : Gej Fp} {P : Pt} (hg : GejRep 7 g P)
    (hP : P ≠ 0) {j : ℕ} (hj : j < 2 ^ (w - 2)) :
    AffineOf ((ecmultComputeTable w g).getD j (0, 0)) ((2 * j + 1) • P) := by
  have hlt : ∀ i < 2 ^ (w - 2), 2 * i + 1 < n := by
    intro i hi
    have h1 : 2 ^ (w - 2) ≤ 2 ^ 254 := Nat.pow_le_pow_right (by norm_num) (by omega)
    have h2 : 2 * 2 ^ 254 ≤ n := by decide +kernel
    omega
  unfold ecmultComputeTable
  have h1 := geSetGejVar_rep hg
  have h2 := geSetGejVar_rep (gejDoubleVar_rep neg7_not_cube hg)
  have e : ∀ i : ℕ, P + (i + 1) • (P + P) = (2 * (i + 1) + 1) • P := by
    intro i; rw [← two_nsmul, ← mul_smul, succ_nsmul P, add_comm, mul_comm]
  cases j with
  | zero =>
    rw [List.getD_cons_zero, mul_zero, zero_add, one_smul]
    exact geToStorage_affine h1 hP
  | succ j =>
    rw [List.getD_cons_succ]
    have := computeTableLoop_spec h2 (ecmultTableSize w - 1) _ P h1
      (fun i hi => by
        rw [ecmultTableSize] at hi
        rw [e]; exact odd_smul_ne_zero hP (hlt (i + 1) (by omega)) (by omega)) j
      (by rw [ecmultTableSize]; omega)
    rwa [e] at this

theorem doubles_rep (k : ℕ) : ∀ {g : Gej Fp} {P : Pt}, GejRep 7 g P →
    GejRep 7 ((List.range k).foldl (fun gj _ => (gejDoubleVar gj).1) g) (2 ^ k • P) := by
  induction k with
  | zero => intro g P h; simpa using h
  | succ k ih =>
    intro g P h
    rw [List.range_succ, List.foldl_append]
    simp only [List.foldl_cons, List.foldl_nil]
    have := gejDoubleVar_rep neg7_not_cube (ih h)
    rwa [← two_nsmul, ← mul_smul, ← pow_succ'] at this

/-! ### The comb tables -/

theorem two_mul_inv_fn : (2 : Fn) * (2 : Fn)⁻¹ = 1 := by
  have : 2 * ((n + 1) / 2) = n + 1 := by decide +kernel
  have h2 := congrArg (Nat.cast : ℕ → Fn) this
  rw [Nat.cast_mul, Nat.cast_add, ZMod.natCast_self, zero_add, Nat.cast_one, two_mul_half_n] at h2
  exact h2

theorem half_smul (P : Pt) : ((2 : Fn)⁻¹ • P) + ((2 : Fn)⁻¹ • P) = P := by
  rw [← add_smul, ← two_mul, two_mul_inv_fn, one_smul]

theorem ladder_rep {g : Ge Fp} {P : Pt} (hg : GeRep 7 g P) (s : Fn) (k : ℕ) :
    ∀ (m : ℕ), k + m = 256 →
    GejRep 7 (((List.range 256).reverse.take k).foldl
      (fun u i =>
        let u := (gejDoubleVar u).1
        if scGetBits s i 1 ≠ 0 then (gejAddGeVar u g).1 else u) gejInfinity)
      ((s.val / 2 ^ m) • P) := by
  induction k with
  | zero =>
    intro m hm
    have : s.val / 2 ^ m = 0 := by
      apply Nat.div_eq_of_lt
      have : m = 256 := by omega
      rw [this]
      exact lt_trans (ZMod.val_lt s) n_lt
    rw [this, zero_nsmul, List.take_zero, List.foldl_nil]
    exact gejInfinity_rep 7
  | succ k ih =>
    intro m hm
    have hlen : k < (List.range 256).reverse.length := by simp; omega
    have hget : (List.range 256).reverse[k] = m := by
      rw [List.getElem_reverse, List.getElem_range, List.length_range]; omega
    rw [List.take_add_one, List.getElem?_eq_getElem hlen, hget, Option.toList_some,
      List.foldl_append, List.foldl_cons, List.foldl_nil]
    have h := gejDoubleVar_rep neg7_not_cube (ih (m + 1) (by omega))
    generalize List.foldl _ _ _ = u at h ⊢
    have hdiv : s.val / 2 ^ m = 2 * (s.val / 2 ^ (m + 1)) + s.val / 2 ^ m % 2 := by
      rw [pow_succ, ← Nat.div_div_eq_div_mul]; omega
    rw [← two_nsmul, ← mul_smul] at h
    have hb : scGetBits s m 1 = s.val / 2 ^ m % 2 := by rw [scGetBits, pow_one]
    dsimp only
    rw [hdiv, hb]
    by_cases h0 : s.val / 2 ^ m % 2 = 0
    · rw [if_neg (by simpa using h0), h0, add_zero]; exact h
    · rw [if_pos h0, show s.val / 2 ^ m % 2 = 1 by omega, add_smul, one_smul]
      exact gejAddGeVar_rep neg7_not_cube h hg

theorem genTableHalf_rep {g : Ge Fp} {P : Pt} (hg : GeRep 7 g P) :
    GejRep 7 (genTableHalf g) ((2 : Fn)⁻¹ • P) := by
  have h := ladder_rep hg (scHalf 1) 256 0 rfl
  rw [List.take_of_length_le (by simp), pow_zero, Nat.div_one] at h
  have e : scHalf 1 = (2 : Fn)⁻¹ := eq_inv_of_mul_eq_one_right (half_mul_two 1)
  rw [val_smul] at h
  unfold genTableHalf
  rw [← e]
  exact h

/-- `2^((b·T + t)·S)/2`. -/
noncomputable def combPow (T S b t : ℕ) : Fn := 2 ^ ((b * T + t) * S) * (2 : Fn)⁻¹

theorem combPow_double (T S b t : ℕ) (P : Pt) :
    combPow T S b t • P + combPow T S b t • P = (2 ^ ((b * T + t) * S) : Fn) • P := by
  rw [← add_smul, combPow, ← mul_add, ← two_mul, two_mul_inv_fn, mul_one]

/-- The state of the loop over teeth before tooth `t`. -/
structure ToothInv (B T S b : ℕ) (P : Pt) (t : ℕ) (st : ToothState) : Prop where
  u : t < T ∨ b + 1 < B → GejRep 7 st.u (combPow T S b t • P)
  sum : GejRep 7 st.sum ((∑ s ∈ range t, combPow T S b s) • P)
  len : st.ds.length = t
  ds : ∀ s < t, GejRep 7 (st.ds.getD s gejInfinity) ((2 ^ ((b * T + s) * S) : Fn) • P)

theorem genTableTooth_inv {B T S b : ℕ} {P : Pt} (hS : 1 ≤ S) {t : ℕ} (ht : t < T) (hb : b < B)
    {st : ToothState} (h : ToothInv B T S b P t st) :
    ToothInv B T S b P (t + 1) (genTableTooth B T S b st t) := by
  have hu := h.u (Or.inl ht)
  have hd := gejDoubleVar_rep neg7_not_cube hu
  rw [combPow_double] at hd
  unfold genTableTooth
  refine ⟨fun hlast => ?_, ?_, ?_, ?_⟩
  · dsimp only
    rw [if_pos (by omega)]
    have := doubles_rep (S - 1) hd
    have e : combPow T S b (t + 1) = (2 : Fn) ^ (S - 1) * 2 ^ ((b * T + t) * S) := by
      rw [combPow, ← add_assoc, add_mul (b * T + t) 1 S, one_mul, pow_add]
      obtain ⟨k, rfl⟩ : ∃ k, S = k + 1 := ⟨S - 1, by omega⟩
      rw [Nat.add_sub_cancel, mul_assoc, mul_comm ((2 : Fn) ^ (_ * _)), pow_succ (2 : Fn) k, mul_assoc,
        mul_assoc, ← mul_assoc 2, two_mul_inv_fn, one_mul]
    rw [← natCast_smul, ← mul_smul, Nat.cast_pow, Nat.cast_ofNat, ← e] at this
    exact this
  · dsimp only
    rw [Finset.sum_range_succ, add_smul]
    exact gejAddVar_rep neg7_not_cube h.sum hu
  · simp [h.len]
  · intro s hs
    dsimp only
    by_cases he : s < t
    · rw [List.getD_append _ _ _ _ (by rw [h.len]; exact he)]
      exact h.ds s he
    · obtain rfl : s = t := by omega
      rw [List.getD_append_right _ _ _ _ (by rw [h.len]), h.len, Nat.sub_self, List.getD_cons_zero]
      exact hd

theorem teeth_inv {B T S b : ℕ} {P : Pt} (hS : 1 ≤ S) (hb : b < B) {u : Gej Fp}
    (hu : GejRep 7 u (combPow T S b 0 • P)) :
    ToothInv B T S b P T ((List.range T).foldl (genTableTooth B T S b) ⟨u, gejInfinity, []⟩) := by
  have key : ∀ t ≤ T, ToothInv B T S b P t
      ((List.range t).foldl (genTableTooth B T S b) ⟨u, gejInfinity, []⟩) := by
    intro t
    induction t with
    | zero =>
      intro _
      refine ⟨fun _ => hu, ?_, rfl, by omega⟩
      rw [List.range_zero, List.foldl_nil, Finset.sum_range_zero]
      have e : (0 : Fn) • P = 0 := zero_smul Fn P
      rw [e]
      exact gejInfinity_rep 7
    | succ t ih =>
      intro ht
      rw [List.range_succ, List.foldl_append, List.foldl_cons, List.foldl_nil]
      exact genTableTooth_inv hS (by omega) hb (ih (by omega))
  exact key T le_rfl

/-- The points of block `b` with indices below `m`. -/
noncomputable def combPts (T S b : ℕ) (P : Pt) (m : ℕ) : List Pt :=
  (List.range m).map fun i => combCoef T S b i • P

theorem combPts_succ (T S b : ℕ) (P : Pt) (m : ℕ) :
    combPts T S b P (m + 1) = combPts T S b P m ++ [combCoef T S b m • P] := by
  rw [combPts, List.range_succ, List.map_append]; rfl

theorem forall2_getD {R : Gej Fp → Pt → Prop} {l : List (Gej Fp)} {m : List Pt}
    (h : List.Forall₂ R l m) (i : ℕ) (hi : i < l.length) : R (l.getD i gejInfinity) (m.getD i 0) := by
  induction h generalizing i with
  | nil => simp at hi
  | cons h1 h2 ih =>
    cases i with
    | zero => simpa using h1
    | succ i => simpa using ih i (by simpa using hi)

theorem combCoef_step {T S b m t : ℕ} (ht : t < T) (h1 : 2 ^ t ≤ m) (h2 : m < 2 ^ (t + 1)) :
    combCoef T S b m = combCoef T S b (m - 2 ^ t) + 2 ^ ((b * T + t) * S) := by
  unfold combCoef
  rw [spread_step T S b m t ht h1 h2, Nat.cast_add, Nat.cast_pow, Nat.cast_ofNat]
  ring

theorem genTableDouble_rep {B T S b : ℕ} {P : Pt} {st : ToothState} (h : ToothInv B T S b P T st)
    {t : ℕ} (ht : t < T) {vs : List (Gej Fp)} {Qs : List Pt}
    (hv : List.Forall₂ (GejRep 7) vs (Qs ++ combPts T S b P (2 ^ t))) :
    List.Forall₂ (GejRep 7) (genTableDouble st.ds vs t) (Qs ++ combPts T S b P (2 ^ (t + 1))) := by
  have key : ∀ k ≤ 2 ^ t, List.Forall₂ (GejRep 7)
      ((List.range k).foldl (fun vs _ => vs ++ [(gejAddVar (vs.getD (vs.length - 1 <<< t) gejInfinity)
        (st.ds.getD t gejInfinity)).1]) vs) (Qs ++ combPts T S b P (2 ^ t + k)) := by
    intro k
    induction k with
    | zero => intro _; simpa using hv
    | succ k ih =>
      intro hk
      have hi := ih (by omega)
      rw [List.range_succ, List.foldl_append, List.foldl_cons, List.foldl_nil]
      generalize List.foldl _ vs (List.range k) = w at hi ⊢
      rw [← add_assoc, combPts_succ, ← List.append_assoc]
      refine List.rel_append hi (.cons ?_ .nil)
      have hl := hi.length_eq
      rw [List.length_append, combPts, List.length_map, List.length_range] at hl
      have hidx : w.length - 1 <<< t = Qs.length + k := by
        rw [hl, Nat.shiftLeft_eq, one_mul]; omega
      have hg := forall2_getD hi (Qs.length + k) (by have := Nat.two_pow_pos t; omega)
      rw [hidx]
      rw [List.getD_append_right _ _ _ _ (by omega), Nat.add_sub_cancel_left, combPts,
        List.getD_eq_getElem?_getD (l := List.map _ _), List.getElem?_map,
        List.getElem?_range (by have := Nat.two_pow_pos t; omega), Option.map_some, Option.getD_some] at hg
      have := gejAddVar_rep neg7_not_cube hg (h.ds t ht)
      rw [← add_smul] at this
      rw [combCoef_step ht (Nat.le_add_right _ _) (by rw [pow_succ]; omega), Nat.add_sub_cancel_left]
      exact this
  have := key (2 ^ t) le_rfl
  rw [genTableDouble, show 2 ^ (t + 1) = 2 ^ t + 2 ^ t by rw [pow_succ]; omega]
  rw [show (1 <<< t : ℕ) = 2 ^ t by rw [Nat.shiftLeft_eq, one_mul]] at this ⊢
  exact this

theorem spread_full (T S b : ℕ) : spread T S b (2 ^ T - 1) = ∑ t ∈ range T, 2 ^ ((b * T + t) * S) := by
  rw [spread]
  apply Finset.sum_congr rfl
  intro t ht
  have h := Nat.testBit_two_pow_sub_one T t
  rw [decide_eq_true (mem_range.1 ht), Nat.testBit_eq_decide_div_mod_eq] at h
  rw [of_decide_eq_true h, one_mul]

theorem combCoef_zero (T S b : ℕ) : combCoef T S b 0 = -∑ s ∈ range T, combPow T S b s := by
  rw [combCoef, spread_zero, Nat.cast_zero, zero_sub, spread_full, Nat.cast_sum, Finset.sum_mul]
  congr 1
  apply Finset.sum_congr rfl
  intro t _
  rw [combPow, Nat.cast_pow, Nat.cast_ofNat]

theorem genTableBlock_rep {B T S b : ℕ} {P : Pt} (hS : 1 ≤ S) (hT : 1 ≤ T) (hb : b < B)
    {st : Gej Fp × List (Gej Fp)} {Qs : List Pt} (hu : GejRep 7 st.1 (combPow T S b 0 • P))
    (hv : List.Forall₂ (GejRep 7) st.2 Qs) :
    (b + 1 < B → GejRep 7 (genTableBlock B T S st b).1 (combPow T S (b + 1) 0 • P)) ∧
      List.Forall₂ (GejRep 7) (genTableBlock B T S st b).2
        (Qs ++ combPts T S b P (2 ^ (T - 1))) := by
  have h := teeth_inv hS hb hu
  unfold genTableBlock
  dsimp only
  generalize List.foldl _ _ (List.range T) = ts at h ⊢
  constructor
  · intro hlt
    have := h.u (Or.inr hlt)
    rwa [combPow, show (b * T + T) = (b + 1) * T + 0 by ring] at this
  · have key : ∀ t ≤ T - 1, List.Forall₂ (GejRep 7)
        ((List.range t).foldl (genTableDouble ts.ds) (st.2 ++ [gejNeg ts.sum]))
        (Qs ++ combPts T S b P (2 ^ t)) := by
      intro t
      induction t with
      | zero =>
        intro _
        rw [pow_zero, ← zero_add 1, combPts_succ, List.range_zero, List.foldl_nil]
        refine List.rel_append hv (.cons ?_ .nil)
        rw [combCoef_zero, neg_smul]
        exact gejNeg_rep h.sum
      | succ t ih =>
        intro ht
        rw [List.range_succ, List.foldl_append, List.foldl_cons, List.foldl_nil]
        exact genTableDouble_rep h (by omega) (ih (by omega))
    exact key (T - 1) le_rfl

/-- All points of the table with blocks below `m`. -/
noncomputable def combAll (T S : ℕ) (P : Pt) (m : ℕ) : List Pt :=
  (List.range m).flatMap fun b => combPts T S b P (2 ^ (T - 1))

theorem blocks_rep {B T S : ℕ} {P : Pt} (hS : 1 ≤ S) (hT : 1 ≤ T) {u0 : Gej Fp}
    (hu0 : GejRep 7 u0 ((2 : Fn)⁻¹ • P)) :
    List.Forall₂ (GejRep 7) ((List.range B).foldl (genTableBlock B T S) (u0, [])).2
      (combAll T S P B) := by
  have key : ∀ b ≤ B,
      (b < B → GejRep 7 ((List.range b).foldl (genTableBlock B T S) (u0, [])).1
        (combPow T S b 0 • P)) ∧
      List.Forall₂ (GejRep 7) ((List.range b).foldl (genTableBlock B T S) (u0, [])).2
        (combAll T S P b) := by
    intro b
    induction b with
    | zero =>
      intro _
      rw [List.range_zero, List.foldl_nil]
      refine ⟨fun _ => ?_, ?_⟩
      · have e : combPow T S 0 0 = (2 : Fn)⁻¹ := by
          rw [combPow, zero_mul, zero_add, zero_mul, pow_zero, one_mul]
        rw [e]
        exact hu0
      · rw [combAll, List.range_zero, List.flatMap_nil]; exact .nil
    | succ b ih =>
      intro hb
      obtain ⟨h1, h2⟩ := ih (by omega)
      rw [List.range_succ, List.foldl_append, List.foldl_cons, List.foldl_nil]
      have := genTableBlock_rep (b := b) hS hT (show b < B by omega) (h1 (by omega)) h2
      refine ⟨this.1, ?_⟩
      rw [combAll, List.range_succ, List.flatMap_append, List.flatMap_cons, List.flatMap_nil,
        List.append_nil]
      exact this.2
  exact (key B le_rfl).2

theorem flatMap_getD {γ : Type} (f : ℕ → List γ) (m : ℕ) (hf : ∀ b, (f b).length = m) (d : γ) :
    ∀ (B b i : ℕ), b < B → i < m →
      ((List.range B).flatMap f).getD (b * m + i) d = (f b).getD i d := by
  intro B
  induction B with
  | zero => intro b i hb; omega
  | succ B ih =>
    intro b i hb hi
    rw [List.range_succ, List.flatMap_append]
    have hlen : ((List.range B).flatMap f).length = B * m := by
      rw [List.length_flatMap]
      simp [hf]
    by_cases he : b < B
    · rw [List.getD_append _ _ _ _ (by
        rw [hlen]
        calc b * m + i < b * m + m := by omega
          _ = (b + 1) * m := by ring
          _ ≤ B * m := Nat.mul_le_mul_right _ he)]
      exact ih b i he hi
    · obtain rfl : b = B := by omega
      rw [List.getD_append_right _ _ _ _ (by rw [hlen]; omega), hlen, Nat.add_sub_cancel_left]
      simp

theorem storage_getD {l : List (Ge Fp)} {m : List Pt} (h : List.Forall₂ (GeRep 7) l m) (k : ℕ) (Q : Pt)
    (hQ : m.getD k 0 = Q) (hne : Q ≠ 0) : AffineOf ((l.map geToStorage).getD k (0, 0)) Q := by
  induction h generalizing k with
  | nil => rw [List.getD_nil] at hQ; exact absurd hQ.symm hne
  | cons h1 h2 ih =>
    cases k with
    | zero =>
      rw [List.getD_cons_zero] at hQ
      rw [List.map_cons, List.getD_cons_zero, ← hQ]
      exact geToStorage_affine h1 (hQ ▸ hne)
    | succ k =>
      rw [List.getD_cons_succ] at hQ
      rw [List.map_cons, List.getD_cons_succ]
      exact ih k hQ

theorem combAll_getD {B T S : ℕ} {P : Pt} {b i : ℕ} (hb : b < B) (hi : i < 2 ^ (T - 1)) :
    (combAll T S P B).getD (b * 2 ^ (T - 1) + i) 0 = combCoef T S b i • P := by
  have hl : ∀ b, (combPts T S b P (2 ^ (T - 1))).length = 2 ^ (T - 1) := by
    intro b; rw [combPts, List.length_map, List.length_range]
  rw [combAll, flatMap_getD _ (2 ^ (T - 1)) hl 0 B b i hb hi, combPts,
    List.getD_eq_getElem?_getD, List.getElem?_map, List.getElem?_range hi, Option.map_some,
    Option.getD_some]

/-- The table computed by the program, before the question whether an entry is at infinity. -/
theorem genTableFrom_rep {B T S : ℕ} {u : Gej Fp} {P : Pt} (hS : 1 ≤ S) (hT : 1 ≤ T)
    (hu : GejRep 7 u ((2 : Fn)⁻¹ • P)) {b i : ℕ} (hb : b < B) (hi : i < 2 ^ (T - 1))
    (hne : combCoef T S b i • P ≠ 0) :
    AffineOf ((genTableFrom u B T S).getD (b * 2 ^ (T - 1) + i) (0, 0)) (combCoef T S b i • P) := by
  have h := geSetAllGejVar_rep (blocks_rep (B := B) hS hT hu)
  exact storage_getD h _ _ (combAll_getD hb hi) hne

theorem ecmultGenComputeTable_rep {B T S : ℕ} {g : Ge Fp} {P : Pt} (hS : 1 ≤ S) (hT : 1 ≤ T)
    (hg : GeRep 7 g P) {b i : ℕ} (hb : b < B) (hi : i < 2 ^ (T - 1))
    (hne : combCoef T S b i • P ≠ 0) :
    AffineOf ((ecmultGenComputeTable g B T S).getD (b * 2 ^ (T - 1) + i) (0, 0))
      (combCoef T S b i • P) := by
  rw [ecmultGenComputeTable]
  exact genTableFrom_rep hS hT (genTableHalf_rep hg) hb hi hne

end Secp
