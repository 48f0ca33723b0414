import Verif.Proof.Table

/-! # The Strauss multiplication computes the linear combination -/

namespace Secp
open WeierstrassCurve Model FeOps Finset

local notation "hb7" => neg7_not_cube

theorem fn_zero_smul (P : Pt) : (0 : Fn) • P = 0 := zero_smul Fn P

/-- Digit number `i` as a scalar. -/
def dig (l : List Int) (i : ℕ) : Fn := ((l.getD i 0 : ℤ) : Fn)

/-- `w` (digits, number of digits) is a windowed representation of `a`. -/
structure WOk (win : ℕ) (w : List Int × ℕ) (a : Fn) : Prop where
  digit : ∀ j, DigitOk win (w.1.getD j 0)
  zero : ∀ j, w.2 ≤ j → w.1.getD j 0 = 0
  sum : ∀ B, w.2 ≤ B → ∑ j ∈ range B, (2 : Fn) ^ j * dig w.1 j = a

theorem wok_wnaf {a : Fn} (ha : Small a) {w : ℕ} (hw : 2 ≤ w) : WOk w (ecmultWnaf 129 a w) a := by
  obtain ⟨h1, _, h3, h4⟩ := ecmultWnaf_spec ha hw
  refine ⟨h1, h3, fun B hB => ?_⟩
  refine Eq.trans ?_ (h4 B hB)
  unfold digitSum dig
  push_cast
  exact sum_congr rfl (fun j _ => mul_comm _ _)

theorem wok_none (w : ℕ) : WOk w ([], 0) 0 := by
  refine ⟨fun j => .inl rfl, fun j _ => rfl, fun B _ => ?_⟩
  unfold dig
  simp

theorem idx_pos {w : ℕ} {k : ℤ} (hw : 2 ≤ w) (h : DigitOk w k) (hk : k > 0) :
    ∃ m : ℕ, m < 2 ^ (w - 2) ∧ ((k - 1) / 2).toNat = m ∧ k = 2 * m + 1 := by
  obtain ⟨v, rfl⟩ := Nat.exists_eq_add_of_le hw
  rcases h with h | ⟨h1, h2, h3⟩
  · omega
  · rw [show 2 + v - 1 = v + 1 by omega, pow_succ] at h3
    refine ⟨((k - 1) / 2).toNat, ?_, rfl, by omega⟩
    rw [show 2 + v - 2 = v by omega]
    zify
    generalize (2 : ℤ) ^ v = V at *
    omega

theorem idx_neg {w : ℕ} {k : ℤ} (hw : 2 ≤ w) (h : DigitOk w k) (h0 : k ≠ 0) (hk : ¬ k > 0) :
    ∃ m : ℕ, m < 2 ^ (w - 2) ∧ ((-k - 1) / 2).toNat = m ∧ k = -(2 * m + 1) := by
  obtain ⟨v, rfl⟩ := Nat.exists_eq_add_of_le hw
  rcases h with h | ⟨h1, h2, h3⟩
  · omega
  · rw [show 2 + v - 1 = v + 1 by omega, pow_succ] at h2
    refine ⟨((-k - 1) / 2).toNat, ?_, rfl, by omega⟩
    rw [show 2 + v - 2 = v by omega]
    zify
    generalize (2 : ℤ) ^ v = V at *
    omega

theorem tableGetGe_rep {b : Fp} {pre : List (Ge Fp)} {w : ℕ} (hw : 2 ≤ w) {A : (curve b).Point}
    (hpre : ∀ m, m < 2 ^ (w - 2) → GeRep b (pre.getD m geGarbage) ((2 * m + 1) • A)) {k : ℤ}
    (hk : DigitOk w k) (h0 : k ≠ 0) : GeRep b (tableGetGe pre k) (k • A) := by
  unfold tableGetGe
  split
  · rename_i h
    obtain ⟨m, h1, h2, h3⟩ := idx_pos hw hk h
    rw [h2, h3]
    have := hpre m h1
    rw [← natCast_zsmul] at this
    exact_mod_cast this
  · rename_i h
    obtain ⟨m, h1, h2, h3⟩ := idx_neg hw hk h0 h
    rw [h2, h3, neg_smul]
    have := geNeg_rep (hpre m h1)
    rw [← natCast_zsmul] at this
    simp only [geNeg] at this
    exact_mod_cast this

theorem tableGetGeLambda_eq {pre : List (Ge Fp)} {k : ℤ} {c : Fp}
    (hp : ∀ e ∈ pre, e.infinity = false)
    (hi : (if k > 0 then (k - 1) / 2 else (-k - 1) / 2).toNat < pre.length) :
    tableGetGeLambda pre (pre.map fun g => mul g.x c) k =
      { tableGetGe pre k with x := (tableGetGe pre k).x * c } := by
  unfold tableGetGeLambda tableGetGe
  split
  · rename_i h
    rw [if_pos h] at hi
    have := hp _ (List.getElem_mem hi)
    simp only [geSetXY, List.getD_eq_getElem?_getD, List.getElem?_map,
      List.getElem?_eq_getElem hi, Option.map_some, Option.getD_some, mul, this]
  · rename_i h
    rw [if_neg h] at hi
    have := hp _ (List.getElem_mem hi)
    simp only [geSetXY, List.getD_eq_getElem?_getD, List.getElem?_map,
      List.getElem?_eq_getElem hi, Option.map_some, Option.getD_some, mul, this]

theorem tableGetGeStorage_rep {tab : ℕ → ℕ × ℕ} {w : ℕ} (hw : 2 ≤ w) {A : Pt}
    (hpre : ∀ m, m < 2 ^ (w - 2) → Entry (tab m) ((2 * m + 1) • A)) {k : ℤ}
    (hk : DigitOk w k) (h0 : k ≠ 0) : GeRep 7 (tableGetGeStorage tab k) (k • A) := by
  unfold tableGetGeStorage
  split
  · rename_i h
    obtain ⟨m, h1, h2, h3⟩ := idx_pos hw hk h
    rw [h2, h3]
    have := hpre m h1
    rw [← natCast_zsmul] at this
    exact_mod_cast this
  · rename_i h
    obtain ⟨m, h1, h2, h3⟩ := idx_neg hw hk h0 h
    rw [h2, h3, neg_smul]
    have := geNeg_rep (hpre m h1)
    rw [← natCast_zsmul] at this
    simp only [geNeg] at this
    exact_mod_cast this

/-! ### First loop -/

/-- A point state of the loop is right for the point `u.1` and the scalar `u.2`. -/
def PsOk (bits : ℕ) (ps : StraussPoint) (u : Pt × Fn) : Prop :=
  u.1 ≠ 0 ∧ ps.bitsNa1 ≤ bits ∧ ps.bitsNaLam ≤ bits ∧
  ∃ k1 k2, k1 + lam * k2 = u.2 ∧ WOk 5 (ps.wnafNa1, ps.bitsNa1) k1 ∧
    WOk 5 (ps.wnafNaLam, ps.bitsNaLam) k2

theorem PsOk.mono {B B' : ℕ} (h : B ≤ B') {ps u} (hp : PsOk B ps u) : PsOk B' ps u :=
  ⟨hp.1, hp.2.1.trans h, hp.2.2.1.trans h, hp.2.2.2⟩

theorem psOk_mk {B : ℕ} {W1 W2 : List Int × ℕ} {A : Pt} {na k1 k2 : Fn} (hA : A ≠ 0) (b1 : W1.2 ≤ B)
    (b2 : W2.2 ≤ B) (e : k1 + lam * k2 = na) (w1 : WOk windowA W1 k1) (w2 : WOk windowA W2 k2) :
    PsOk B { wnafNa1 := W1.1, wnafNaLam := W2.1, bitsNa1 := W1.2, bitsNaLam := W2.2 } (A, na) :=
  ⟨hA, b1, b2, k1, k2, e, w1, w2⟩

/-- The points the table stands for. -/
def tabPt (us : List (Pt × Fn)) (j : ℕ) : Pt := (2 * (j % 8) + 1) • (us.getD (j / 8) (0, 0)).1

/-- The linear combination. -/
noncomputable def linComb (us : List (Pt × Fn)) : Pt := (us.map fun u => u.2 • u.1).sum

structure PrepInv (st : StraussState Fp) (us : List (Pt × Fn)) : Prop where
  Z_ne : st.Z ≠ 0
  len : st.table.length = 8 * us.length
  ps : List.Forall₂ (PsOk st.bits) st.ps us
  chain : ∃ z0, Chain 7 z0 st.table (tabPt us) st.Z

theorem odd_smul_ne {A : Pt} (hA : A ≠ 0) (j : ℕ) (hj : j < 2 ^ 20) : (2 * j + 1) • A ≠ 0 := by
  rw [← natCast_smul]
  refine fun h0 => (smul_eq_zero_iff.1 h0).elim (fun h => ?_) hA
  rw [ZMod.natCast_eq_zero_iff] at h
  have := Nat.le_of_dvd (by omega) h
  have hn : 2 ^ 22 < n := by decide +kernel
  omega

theorem tabPt_append (us : List (Pt × Fn)) (u : Pt × Fn) (j : ℕ) (hj : j < 8 * us.length) :
    tabPt (us ++ [u]) j = tabPt us j := by
  unfold tabPt
  rw [List.getD_eq_getElem?_getD, List.getElem?_append_left (by omega), List.getD_eq_getElem?_getD]

theorem tabPt_append_right (us : List (Pt × Fn)) (u : Pt × Fn) (j : ℕ) (hj : j < 8) :
    tabPt (us ++ [u]) (j + 8 * us.length) = (2 * j + 1) • u.1 := by
  unfold tabPt
  rw [show (j + 8 * us.length) / 8 = us.length by omega,
    show (j + 8 * us.length) % 8 = j by omega, List.getD_eq_getElem?_getD, List.getElem?_append_right le_rfl]
  simp

theorem forall₂_snoc {α β : Type*} {R : α → β → Prop} {l : List α} {m : List β} {a : α} {b : β}
    (h : List.Forall₂ R l m) (hab : R a b) : List.Forall₂ R (l ++ [a]) (m ++ [b]) := by
  induction h with
  | nil => exact .cons hab .nil
  | cons h _ ih => exact .cons h ih

theorem straussPrep_inv {st : StraussState Fp} {us : List (Pt × Fn)} (h : PrepInv st us)
    {a : Gej Fp} {A : Pt} (ha : GejRep 7 a A) (na : Fn) :
    ∃ us', PrepInv (straussPrep st (a, na)) us' ∧ linComb us' = linComb us + na • A := by
  by_cases hz : scIsZero na || a.infinity
  · refine ⟨us, ?_, ?_⟩
    · unfold straussPrep; simp only; rw [if_pos hz]; exact h
    · rcases Bool.or_eq_true_iff.1 hz with h' | h'
      · have : na = 0 := by simpa [scIsZero] using h'
        rw [this, fn_zero_smul, add_zero]
      · rw [ha.inf_iff.1 h', smul_zero, add_zero]
  have hi : a.infinity = false := by
    cases h' : a.infinity
    · rfl
    · rw [h', Bool.or_true] at hz; exact absurd rfl hz
  have hA : A ≠ 0 := fun e => by rw [ha.inf_iff.2 e] at hi; cases hi
  obtain ⟨s1, s2, s3⟩ := splitLambda_spec na
  have w1 := wok_wnaf s2 (w := windowA) (by decide)
  have w2 := wok_wnaf s3 (w := windowA) (by decide)
  refine ⟨us ++ [(A, na)], ?_, by simp [linComb]⟩
  obtain ⟨_, _, _, hz0, _⟩ := ha.elim hi
  have hps := h.ps.length_eq
  obtain ⟨z0, hch⟩ := h.chain
  unfold straussPrep
  simp only
  rw [if_neg hz]
  generalize ecmultWnaf 129 (scSplitLambda na).1 windowA = W1 at *
  generalize ecmultWnaf 129 (scSplitLambda na).2 windowA = W2 at *
  -- the table of this point continues the chain
  have htab : ∀ (z0 : Fp), Chain 7 z0 st.table (tabPt us) st.Z →
      let t := oddMultiplesTable (ecmultTableSize windowA)
        (if st.ps.length ≠ 0 then gejRescale a st.Z else a)
      t.2 ≠ 0 ∧ ∃ g r rest, t.1 = (g, r) :: rest ∧ rest.length = 7 ∧ ∃ z1,
        Chain 7 z1 (st.table ++ (g, if st.ps.length ≠ 0 then mul r a.z else r) :: rest)
          (tabPt (us ++ [(A, na)])) t.2 := by
    intro z0 hch
    have hrep : GejRep 7 (if st.ps.length ≠ 0 then gejRescale a st.Z else a) A := by
      split
      · exact gejRescale_rep ha h.Z_ne
      · exact ha
    obtain ⟨o1, o2, o3⟩ := oddMultiplesTable_spec hb7 hrep (ecmultTableSize windowA) (by decide)
      (fun j hj => odd_smul_ne hA j (lt_trans hj (by decide)))
    have e8 : ecmultTableSize windowA = 8 := by decide
    generalize htt : oddMultiplesTable (ecmultTableSize windowA)
        (if st.ps.length ≠ 0 then gejRescale a st.Z else a) = t at *
    refine ⟨o2, ?_⟩
    obtain ⟨l, tz⟩ := t
    simp only at *
    rw [e8] at o1
    match l, o1, o3 with
    | (g, r) :: rest, o1, o3 =>
      refine ⟨g, r, rest, rfl, by simpa using o1, ?_⟩
      by_cases hno : st.ps.length ≠ 0
      · refine ⟨z0, Chain.append (zm := st.Z) (hch.congr fun j hj => ?_) ?_⟩
        · rw [tabPt_append _ _ _ (by rw [← h.len]; exact hj)]
        · rw [h.len]
          refine Chain.congr (f := fun j => (2 * j + 1) • A) (fun j hj => ?_) ?_
          · simp only [List.length_cons] at hj o1
            rw [tabPt_append_right _ _ _ (by omega)]
          · obtain ⟨c1, c2, c3, c4⟩ := o3
            rw [if_pos hno] at c3 c4 ⊢
            have ez : st.Z * mul r a.z = (gejRescale a st.Z).z * r := by
              simp only [gejRescale, mul]; ring
            refine ⟨?_, c2, ?_, ?_⟩
            · simp only [mul]; exact mul_ne_zero c1 hz0
            · simp only at c3 ⊢; rw [ez]; exact c3
            · simp only at c4 ⊢; rw [ez]; exact c4
      · rw [if_neg hno] at o3 ⊢
        have hno' : us.length = 0 := by rw [← hps]; simpa using hno
        have hus : us = [] := List.length_eq_zero_iff.1 hno'
        have htb : st.table = [] := by
          rw [← List.length_eq_zero_iff, h.len, hno']
        rw [htb, hus]
        refine ⟨a.z, ?_⟩
        rw [List.nil_append]
        refine Chain.congr (f := fun j => (2 * j + 1) • A) (fun j hj => ?_) o3
        simp only [List.length_cons] at hj o1
        have := tabPt_append_right [] (A, na) j (by omega)
        simpa using this.symm
  obtain ⟨t2, g, r, rest, et, hl, z1, hc⟩ := htab z0 hch
  rw [et]
  refine ⟨t2, ?_, ?_, z1, hc⟩
  · simp only [List.length_append, List.length_cons, h.len, hl, List.length_nil]; ring
  · simp only
    generalize hB : (if W2.2 > (if W1.2 > st.bits then W1.2 else st.bits) then W2.2 else
        if W1.2 > st.bits then W1.2 else st.bits) = B
    have hBs : st.bits ≤ B ∧ W1.2 ≤ B ∧ W2.2 ≤ B := by subst hB; split_ifs <;> omega
    obtain ⟨b1, b2, b3⟩ := hBs
    have hp : PsOk B { wnafNa1 := W1.1, wnafNaLam := W2.1, bitsNa1 := W1.2, bitsNaLam := W2.2 }
        (A, na) := psOk_mk hA b2 b3 s1 w1 w2
    have hq : List.Forall₂ (PsOk B) st.ps us := h.ps.imp fun _ _ => PsOk.mono b1
    exact forall₂_snoc hq hp

theorem straussPrep_fold {pts : List (Gej Fp × Fn)} {Ps : List Pt}
    (h : List.Forall₂ (fun a P => GejRep 7 a.1 P) pts Ps) :
    ∀ {st : StraussState Fp} {us : List (Pt × Fn)}, PrepInv st us →
    ∃ us', PrepInv (pts.foldl straussPrep st) us' ∧
      linComb us' = linComb us + linComb (Ps.zip (pts.map Prod.snd)) := by
  induction h with
  | nil => intro st us h; exact ⟨us, h, by simp [linComb]⟩
  | cons h1 _ ih =>
    intro st us h
    rename_i a P _ _ _
    obtain ⟨us1, i1, e1⟩ := straussPrep_inv h h1 a.2
    obtain ⟨us2, i2, e2⟩ := ih i1
    refine ⟨us2, i2, ?_⟩
    rw [e2, e1]
    simp [linComb, add_assoc]

theorem prepInv_init : PrepInv { Z := setInt 1, table := [], ps := [], bits := 0 } [] :=
  ⟨by simp [setInt], rfl, .nil, 1, by simp [Chain, setInt]⟩

/-! ### Main loop -/

/-- What the points contribute at digit position `i`. -/
noncomputable def ptsD : List StraussPoint → List (Pt × Fn) → ℕ → Pt
  | ps :: t, u :: ut, i => dig ps.wnafNa1 i • u.1 + dig ps.wnafNaLam i • (lam • u.1) + ptsD t ut i
  | _, _, _ => 0

theorem int_smul (k : ℤ) (P : Pt) : ((k : Fn) • P) = k • P := Int.cast_smul_eq_zsmul Fn k P

theorem getD_drop {α : Type*} (l : List α) (k m : ℕ) (d : α) : (l.drop k).getD m d = l.getD (k + m) d := by
  simp [List.getD_eq_getElem?_getD]

theorem straussAddPoint_rep {Z : Fp} (hZ : Z ≠ 0) {pre : List (Ge Fp)} {us : List (Pt × Fn)}
    (hpre : CommonZ 7 Z pre (tabPt us)) (hlen : pre.length = 8 * us.length) {np : ℕ}
    {B : ℕ} {ps : StraussPoint} {u : Pt × Fn} (hu : us[np]? = some u) (hps : PsOk B ps u) (i : ℕ)
    {r : Gej Fp} {R : Pt} (hr : GejRep (7 * Z ^ 6) r (iso hb7 hZ R)) :
    GejRep (7 * Z ^ 6) (straussAddPoint pre (pre.map fun g => mul g.x (constBeta : Fp)) i r np ps)
      (iso hb7 hZ (R + (dig ps.wnafNa1 i • u.1 + dig ps.wnafNaLam i • (lam • u.1)))) := by
  obtain ⟨_, _, _, k1, k2, _, w1, w2⟩ := hps
  have hnp : np < us.length := by
    by_contra h
    rw [List.getElem?_eq_none (by omega)] at hu
    cases hu
  have hug : us.getD np (0, 0) = u := by
    rw [List.getD_eq_getElem?_getD, hu, Option.getD_some]
  have hent : ∀ m, m < 2 ^ (5 - 2) →
      GeRep (7 * Z ^ 6) ((pre.drop (np * ecmultTableSize windowA)).getD m geGarbage)
        ((2 * m + 1) • iso hb7 hZ u.1) := by
    intro m hm
    have hm : m < 8 := hm
    have hlt : np * 8 + m < pre.length := by omega
    obtain ⟨p1, p2⟩ := hpre _ hlt
    rw [getD_drop]
    change GeRep (7 * Z ^ 6) (pre.getD (np * 8 + m) geGarbage) _
    rw [List.getD_eq_getElem?_getD, List.getElem?_eq_getElem hlt, Option.getD_some, ← map_nsmul, iso_rep_ge, p1]
    have : tabPt us (np * 8 + m) = (2 * m + 1) • u.1 := by
      unfold tabPt
      rw [show (np * 8 + m) / 8 = np by omega, show (np * 8 + m) % 8 = m by omega, hug]
    rwa [this] at p2
  have step1 : GejRep (7 * Z ^ 6)
      (if i < ps.bitsNa1 ∧ ps.wnafNa1.getD i 0 ≠ 0 then
        (gejAddGeVar r (tableGetGe (pre.drop (np * ecmultTableSize windowA))
          (ps.wnafNa1.getD i 0))).1 else r) (iso hb7 hZ (R + dig ps.wnafNa1 i • u.1)) := by
    split
    · rename_i hc
      rw [map_add, dig, int_smul, map_zsmul]
      exact gejAddGeVar_rep (iso_ntt hb7 hZ) hr (tableGetGe_rep (w := 5) (by norm_num) hent (w1.digit i) hc.2)
    · rename_i hc
      have : ps.wnafNa1.getD i 0 = 0 := by
        by_contra h0
        exact h0 (w1.zero i (by simpa using fun h => hc ⟨h, h0⟩))
      rw [dig, this, Int.cast_zero, fn_zero_smul, add_zero]
      exact hr
  unfold straussAddPoint
  simp only
  rw [← add_assoc]
  generalize (if i < ps.bitsNa1 ∧ ps.wnafNa1.getD i 0 ≠ 0 then
        (gejAddGeVar r (tableGetGe (pre.drop (np * ecmultTableSize windowA))
          (ps.wnafNa1.getD i 0))).1 else r) = r1 at *
  split
  · rename_i hc
    rw [map_add]
    apply gejAddGeVar_rep (iso_ntt hb7 hZ) step1
    have hd := w2.digit i
    simp only at hd
    rw [← List.map_drop, tableGetGeLambda_eq]
    · have := tableGetGe_rep (w := 5) (by norm_num) hent hd hc.2
      rw [← map_zsmul] at this
      have := endo_rep hZ this
      rw [dig, int_smul, smul_comm]
      exact this
    · intro e he
      obtain ⟨m, hm, rfl⟩ := List.getElem_of_mem (List.mem_of_mem_drop he)
      exact (hpre m hm).1
    · have : (pre.drop (np * ecmultTableSize windowA)).length = pre.length - np * 8 := by
        rw [List.length_drop]; rfl
      rw [this]
      split
      · rename_i h
        obtain ⟨m, h1, h2, h3⟩ := idx_pos (by norm_num) hd h
        rw [h2]
        have : m < 8 := h1
        omega
      · rename_i h
        obtain ⟨m, h1, h2, h3⟩ := idx_neg (by norm_num) hd hc.2 h
        rw [h2]
        have : m < 8 := h1
        omega
  · rename_i hc
    have : ps.wnafNaLam.getD i 0 = 0 := by
      by_contra h0
      exact h0 (w2.zero i (by simpa using fun h => hc ⟨h, h0⟩))
    rw [dig, dig, this, Int.cast_zero, fn_zero_smul, add_zero]
    exact step1

theorem straussAddPoints_rep {Z : Fp} (hZ : Z ≠ 0) {pre : List (Ge Fp)} {us : List (Pt × Fn)}
    (hpre : CommonZ 7 Z pre (tabPt us)) (hlen : pre.length = 8 * us.length) {B : ℕ} (i : ℕ)
    {pss : List StraussPoint} {vs : List (Pt × Fn)} (h : List.Forall₂ (PsOk B) pss vs) :
    ∀ {np : ℕ} {r : Gej Fp} {R : Pt}, us.drop np = vs → GejRep (7 * Z ^ 6) r (iso hb7 hZ R) →
    GejRep (7 * Z ^ 6) (straussAddPoints pre (pre.map fun g => mul g.x (constBeta : Fp)) i np pss r)
      (iso hb7 hZ (R + ptsD pss vs i)) := by
  induction h with
  | nil => intro np r R _ hr; simpa [straussAddPoints, ptsD] using hr
  | cons h1 _ ih =>
    intro np r R hd hr
    rename_i ps u pss vs _
    have hu : us[np]? = some u := by
      rw [← List.head?_drop, hd]; rfl
    have := straussAddPoint_rep hZ hpre hlen hu h1 i hr
    have := ih (np := np + 1) (by rw [← List.drop_drop, hd]; rfl) this
    simp only [ptsD]
    rw [← add_assoc]
    exact this

/-- What the static tables have to contain. -/
structure GTabOk (t : GTab) : Prop where
  window : 2 ≤ t.window
  g : ∀ m, m < 2 ^ (t.window - 2) → Entry (t.g m) ((2 * m + 1) • G)
  g128 : ∀ m, m < 2 ^ (t.window - 2) → Entry (t.g128 m) ((2 * m + 1) • 2 ^ 128 • G)

theorem shippedTab_ok : GTabOk shippedTab :=
  ⟨by decide, fun m hm => preG_entry m hm, fun m hm => preG128_entry m hm⟩

theorem straussAddG_rep {W : ℕ} (hW : 2 ≤ W) {Z : Fp} (hZ : Z ≠ 0) {tab : ℕ → ℕ × ℕ} {A : Pt}
    (htab : ∀ m, m < 2 ^ (W - 2) → Entry (tab m) ((2 * m + 1) • A)) {w : List Int × ℕ} {a : Fn}
    (hw : WOk W w a) (i : ℕ) {r : Gej Fp} {R : Pt}
    (hr : GejRep (7 * Z ^ 6) r (iso hb7 hZ R)) :
    GejRep (7 * Z ^ 6) (straussAddG tab Z w i r) (iso hb7 hZ (R + dig w.1 i • A)) := by
  unfold straussAddG
  simp only
  split
  · rename_i hc
    rw [map_add]
    apply gejAddZinvVar_rep (iso_ntt hb7 hZ) hr hZ
    rw [iso_rep, dig, int_smul]
    have := gejSetGe_rep (tableGetGeStorage_rep hW htab (hw.digit i) hc.2)
    simp only [gejSetGe, setInt] at this
    simp only [inv_mul_cancel₀ hZ]
    simpa using this
  · rename_i hc
    have : w.1.getD i 0 = 0 := by
      by_contra h0
      exact h0 (hw.zero i (by simpa using fun h => hc ⟨h, h0⟩))
    rw [dig, this, Int.cast_zero, fn_zero_smul, add_zero]
    exact hr

theorem straussLoop_rep {t : GTab} (ht : GTabOk t) {Z : Fp} (hZ : Z ≠ 0) {pre : List (Ge Fp)} {us : List (Pt × Fn)}
    (hpre : CommonZ 7 Z pre (tabPt us)) (hlen : pre.length = 8 * us.length) {B : ℕ}
    {pss : List StraussPoint} (h : List.Forall₂ (PsOk B) pss us) {wg1 wg128 : List Int × ℕ}
    {g1 g128 : Fn} (h1 : WOk t.window wg1 g1) (h128 : WOk t.window wg128 g128) (i : ℕ) :
    ∀ {r : Gej Fp} {R : Pt}, GejRep (7 * Z ^ 6) r (iso hb7 hZ R) →
    GejRep (7 * Z ^ 6)
      (straussLoop t pre (pre.map fun g => mul g.x (constBeta : Fp)) pss Z wg1 wg128 i r)
      (iso hb7 hZ ((2 : Fn) ^ i • R + ∑ j ∈ range i, (2 : Fn) ^ j •
        (ptsD pss us j + dig wg1.1 j • G + dig wg128.1 j • (2 ^ 128 : ℕ) • G))) := by
  induction i with
  | zero => intro r R hr; simpa [straussLoop] using hr
  | succ i ih =>
    intro r R hr
    unfold straussLoop
    simp only
    have e1 := gejDoubleVar_rep (iso_ntt hb7 hZ) hr
    rw [← map_add] at e1
    have e2 := straussAddPoints_rep hZ hpre hlen i h (np := 0) rfl e1
    have e3 := straussAddG_rep ht.window hZ ht.g h1 i e2
    have e4 := straussAddG_rep ht.window hZ ht.g128 h128 i e3
    have e5 := ih e4
    convert e5 using 2
    rw [sum_range_succ, pow_succ, mul_smul, two_smul]
    module

theorem sum_ptsD {B : ℕ} {pss : List StraussPoint} {us : List (Pt × Fn)}
    (h : List.Forall₂ (PsOk B) pss us) {N : ℕ} (hN : B ≤ N) :
    ∑ j ∈ range N, (2 : Fn) ^ j • ptsD pss us j = linComb us := by
  induction h with
  | nil => simp [ptsD, linComb]
  | cons h1 _ ih =>
    rename_i ps u pss vs _
    obtain ⟨_, b1, b2, k1, k2, e, w1, w2⟩ := h1
    simp only [ptsD, smul_add, sum_add_distrib, ih]
    have s1 := w1.sum N (b1.trans hN)
    have s2 := w2.sum N (b2.trans hN)
    simp only [← mul_smul]
    rw [← sum_smul, s1, ← sum_smul]
    have : ∑ x ∈ range N, (2 : Fn) ^ x * (dig ps.wnafNaLam x * lam) = lam * k2 := by
      rw [← s2, mul_sum]
      exact sum_congr rfl fun j _ => by ring
    rw [this, ← add_smul, e]
    simp [linComb]

/-- `secp256k1_ecmult_strauss_wnaf` computes `∑ na[i]·a[i] + ng·G`. -/
theorem straussWith_rep {t : GTab} (ht : GTabOk t) {pts : List (Gej Fp × Fn)} {Ps : List Pt}
    (h : List.Forall₂ (fun a P => GejRep 7 a.1 P) pts Ps) (ng : Option Fn) :
    GejRep 7 (straussWith t pts ng) (linComb (Ps.zip (pts.map Prod.snd)) + ng.getD 0 • G) := by
  obtain ⟨us, inv, e⟩ := straussPrep_fold h prepInv_init
  unfold straussWith
  simp only
  generalize pts.foldl straussPrep { Z := setInt 1, table := [], ps := [], bits := 0 } = st at *
  obtain ⟨hZ, hlen, hps, z0, hch⟩ := inv
  obtain ⟨p1, p2⟩ := tableSetGlobalz_spec hch
  rw [hlen] at p2
  generalize hW : straussWnafG t.window ng = W
  have hg : ∃ g1 g128 : Fn, WOk t.window W.1 g1 ∧ WOk t.window W.2 g128 ∧
      g1 + g128 * ((2 ^ 128 : ℕ) : Fn) = ng.getD 0 := by
    cases ng with
    | none => subst hW; exact ⟨0, 0, wok_none _, wok_none _, by simp⟩
    | some k =>
      subst hW
      have hk : k.val < n := ZMod.val_lt k
      have hn : n < 2 ^ 256 := by decide +kernel
      have hn' : 2 ^ 128 < n := by decide +kernel
      have a1 : k.val % 2 ^ 128 < 2 ^ 128 := Nat.mod_lt _ (by norm_num)
      have a2 : k.val / 2 ^ 128 < 2 ^ 128 := Nat.div_lt_of_lt_mul (by rw [← pow_add]; omega)
      refine ⟨_, _, wok_wnaf (a := (scSplit128 k).1) (.inl ?_) ht.window,
        wok_wnaf (a := (scSplit128 k).2) (.inl ?_) ht.window, ?_⟩
      · simp only [scSplit128]
        rw [ZMod.val_natCast_of_lt (a1.trans hn')]; exact a1
      · simp only [scSplit128]
        rw [ZMod.val_natCast_of_lt (a2.trans hn')]; exact a2
      · simp only [scSplit128, Option.getD_some]
        rw [← Nat.cast_mul, ← Nat.cast_add, mul_comm, Nat.mod_add_div, ZMod.natCast_val,
          ZMod.cast_id', id]
  obtain ⟨g1, g128, w1, w128, eg⟩ := hg
  generalize hB : (if W.2.2 > (if W.1.2 > st.bits then W.1.2 else st.bits) then W.2.2 else
      if W.1.2 > st.bits then W.1.2 else st.bits) = B
  have hBs : st.bits ≤ B ∧ W.1.2 ≤ B ∧ W.2.2 ≤ B := by subst hB; split_ifs <;> omega
  obtain ⟨b0, b1, b2⟩ := hBs
  have hr := straussLoop_rep ht hZ p1 p2 hps w1 w128 B
    (r := gejInfinity) (R := 0) (by rw [map_zero]; exact gejInfinity_rep _)
  rw [smul_zero, zero_add] at hr
  have esum : ∑ j ∈ range B, (2 : Fn) ^ j •
      (ptsD st.ps us j + dig W.1.1 j • G + dig W.2.1 j • (2 ^ 128 : ℕ) • G) =
      linComb (Ps.zip (pts.map Prod.snd)) + ng.getD 0 • G := by
    simp only [smul_add, sum_add_distrib, sum_ptsD hps b0]
    simp only [← mul_smul]
    rw [← sum_smul, w1.sum B b1, ← sum_smul, w128.sum B b2, e, ← eg, add_smul, mul_smul,
      natCast_smul]
    simp [linComb, add_assoc]
  rw [esum, iso_rep] at hr
  generalize straussLoop (α := Fp) _ _ _ _ _ _ _ _ _ = r at *
  split
  · exact hr
  · rename_i hi
    have hi : r.infinity = true := by simpa using hi
    have h0 := hr.inf_iff.1 hi
    rw [h0]
    exact GejRep.of_inf hi

theorem strauss_rep {pts : List (Gej Fp × Fn)} {Ps : List Pt}
    (h : List.Forall₂ (fun a P => GejRep 7 a.1 P) pts Ps) (ng : Option Fn) :
    GejRep 7 (strauss pts ng) (linComb (Ps.zip (pts.map Prod.snd)) + ng.getD 0 • G) :=
  straussWith_rep shippedTab_ok h ng

theorem ecmultWith_rep {t : GTab} (ht : GTabOk t) {a : Gej Fp} {A : Pt} (ha : GejRep 7 a A) (na : Fn)
    (ng : Option Fn) : GejRep 7 (ecmultWith t a na ng) (na • A + ng.getD 0 • G) := by
  have := straussWith_rep ht (pts := [(a, na)]) (Ps := [A]) (.cons ha .nil) ng
  simpa [linComb, ecmultWith] using this

/-- `secp256k1_ecmult` -/
theorem ecmult_rep {a : Gej Fp} {A : Pt} (ha : GejRep 7 a A) (na : Fn) (ng : Option Fn) :
    GejRep 7 (ecmult a na ng) (na • A + ng.getD 0 • G) := by
  have := strauss_rep (pts := [(a, na)]) (Ps := [A]) (.cons ha .nil) ng
  simpa [linComb, ecmult] using this

end Secp
