import Verif.Proof.WnafFixed
import Verif.Proof.MultiSimple
import Verif.Proof.EcmultConst
import Verif.Proof.Ecdsa
import Mathlib.Algebra.Module.BigOperators
import Mathlib.Tactic.Module

/-! # `secp256k1_ecmult_pippenger_wnaf` -/

namespace Secp
open WeierstrassCurve Model Finset

/-- The buckets hold the points `B 0, …, B (m-1)`. -/
def BRep (m : ℕ) (bs : List (Gej Fp)) (B : ℕ → Pt) : Prop :=
  bs.length = m ∧ ∀ j < m, GejRep 7 (bs.getD j gejGarbage) (B j)

/-- `Σ (2j+1) B j` -/
noncomputable def bsum (m : ℕ) (B : ℕ → Pt) : Pt := ∑ j ∈ range m, (2 * j + 1) • B j

theorem bsum_update {m idx : ℕ} (B : ℕ → Pt) (Q : Pt) (h : idx < m) :
    bsum m (Function.update B idx (B idx + Q)) = bsum m B + (2 * idx + 1) • Q := by
  unfold bsum
  have : ∀ j ∈ range m, (2 * j + 1) • Function.update B idx (B idx + Q) j =
      (2 * j + 1) • B j + (if j = idx then (2 * idx + 1) • Q else 0) := by
    intro j _
    by_cases hj : j = idx
    · subst hj
      rw [Function.update_self, if_pos rfl, nsmul_add]
    · rw [Function.update_of_ne hj, if_neg hj, add_zero]
  rw [sum_congr rfl this, sum_add_distrib, sum_ite_eq' (range m) idx, if_pos (mem_range.2 h)]

theorem bucketAdd_rep {m idx : ℕ} {bs : List (Gej Fp)} {B : ℕ → Pt} (hb : BRep m bs B) (h : idx < m)
    {a : Ge Fp} {Q : Pt} (ha : GeRep 7 a Q) :
    BRep m (bucketAdd bs idx a) (Function.update B idx (B idx + Q)) := by
  obtain ⟨h1, h2⟩ := hb
  refine ⟨by unfold bucketAdd; simpa using h1, fun j hj => ?_⟩
  unfold bucketAdd
  rw [List.getD_eq_getElem?_getD, List.getElem?_set]
  by_cases hji : idx = j
  · subst hji
    rw [if_pos rfl, if_pos (by omega), Option.getD_some, Function.update_self]
    exact gejAddGeVar_rep neg7_not_cube (h2 _ h) ha
  · rw [if_neg hji, ← List.getD_eq_getElem?_getD, Function.update_of_ne (Ne.symm hji)]
    exact h2 j hj

/-- A prepared point: it stands for the point `Q`, and its digits are in range. -/
structure PPOk (bw : ℕ) (pts : List (Fn × Ge Fp)) (ps : PippPoint) (Q : Pt) : Prop where
  rep : GeRep 7 (pts.getD ps.inputPos (0, geGarbage)).2 Q
  ok : ∀ j, DigitF (bw + 1) (ps.wnaf.getD j 0)
  skew : ps.skewNa ≤ 1

/-- What a point adds in round `i`. -/
noncomputable def contrib (i : ℕ) (ps : PippPoint) (Q : Pt) : Pt :=
  (ps.wnaf.getD i 0 - if i = 0 then (ps.skewNa : ℤ) else 0) • Q

theorem pippBucket_rep {bw i : ℕ} {pts : List (Fn × Ge Fp)} {ps : PippPoint} {Q : Pt} (h : PPOk bw pts ps Q)
    {bs : List (Gej Fp)} {B : ℕ → Pt} (hb : BRep (2 ^ bw) bs B) :
    ∃ B', BRep (2 ^ bw) (pippBucket pts i bs ps) B' ∧
      bsum (2 ^ bw) B' = bsum (2 ^ bw) B + contrib i ps Q := by
  have hskew : ∃ B', BRep (2 ^ bw) (if i = 0 ∧ ps.skewNa ≠ 0 then
      bucketAdd bs 0 (geNeg (pts.getD ps.inputPos (0, geGarbage)).2) else bs) B' ∧
      bsum (2 ^ bw) B' = bsum (2 ^ bw) B - (if i = 0 then (ps.skewNa : ℤ) else 0) • Q := by
    have hs := h.skew
    split_ifs with h1 h2 h2
    · refine ⟨_, bucketAdd_rep hb (by positivity) (geNeg_rep h.rep), ?_⟩
      have : ps.skewNa = 1 := by omega
      rw [bsum_update _ _ (by positivity), this]
      simp [sub_eq_add_neg]
    · exact absurd h1.1 h2
    · have : ps.skewNa = 0 := by omega
      exact ⟨B, hb, by rw [this]; simp⟩
    · exact ⟨B, hb, by simp⟩
  obtain ⟨B1, hb1, e1⟩ := hskew
  unfold pippBucket contrib
  simp only
  have hd := h.ok i
  have hpow : (2 : ℤ) ^ (bw + 1) = 2 * ((2 ^ bw : ℕ) : ℤ) := by push_cast; ring
  unfold DigitF at hd
  rw [hpow, abs_lt] at hd
  have hrep := h.rep
  generalize (if i = 0 then (ps.skewNa : ℤ) else 0) = k at e1 ⊢
  generalize (if i = 0 ∧ ps.skewNa ≠ 0 then
      bucketAdd bs 0 (geNeg (pts.getD ps.inputPos (0, geGarbage)).2) else bs) = bs1 at hb1 ⊢
  generalize (pts.getD ps.inputPos (0, geGarbage)).2 = pt at hrep ⊢
  generalize ps.wnaf.getD i 0 = d at hd ⊢
  rw [sub_zsmul]
  split_ifs with h1 h2
  · refine ⟨_, bucketAdd_rep hb1 (by omega) hrep, ?_⟩
    rw [bsum_update _ _ (by omega), e1, ← natCast_zsmul]
    have : ((2 * ((d - 1) / 2).toNat + 1 : ℕ) : ℤ) = d := by omega
    rw [this]
    abel
  · refine ⟨_, bucketAdd_rep hb1 (by omega) (geNeg_rep hrep), ?_⟩
    rw [bsum_update _ _ (by omega), e1, ← natCast_zsmul]
    have : ((2 * (-(d + 1) / 2).toNat + 1 : ℕ) : ℤ) = -d := by omega
    rw [this, neg_zsmul, zsmul_neg, neg_neg]
    abel
  · have : d = 0 := by omega
    exact ⟨B1, hb1, by rw [e1, this, zero_zsmul]; abel⟩

/-- The sum of the contributions of all points in round `i`. -/
noncomputable def contribs (i : ℕ) (psl : List PippPoint) (Qs : List Pt) : Pt :=
  ((psl.zip Qs).map fun a => contrib i a.1 a.2).sum

theorem pippBuckets_rep {bw i : ℕ} {pts : List (Fn × Ge Fp)} {psl : List PippPoint} {Qs : List Pt}
    (h : List.Forall₂ (PPOk bw pts) psl Qs) : ∀ {bs : List (Gej Fp)} {B : ℕ → Pt} (_ : BRep (2 ^ bw) bs B),
    ∃ B', BRep (2 ^ bw) (psl.foldl (pippBucket pts i) bs) B' ∧
      bsum (2 ^ bw) B' = bsum (2 ^ bw) B + contribs i psl Qs := by
  induction h with
  | nil => exact fun hb => ⟨_, hb, by simp [contribs]⟩
  | @cons ps Q psl Qs h1 _ ih =>
    intro bs B hb
    obtain ⟨B1, hb1, e1⟩ := pippBucket_rep (i := i) h1 hb
    obtain ⟨B2, hb2, e2⟩ := ih hb1
    refine ⟨B2, hb2, ?_⟩
    rw [e2, e1, add_assoc]
    rfl

theorem doubleTimes_rep : ∀ (k : ℕ) {r : Gej Fp} {R : Pt} (_ : GejRep 7 r R),
    GejRep 7 (doubleTimes k r) (2 ^ k • R)
  | 0, _, _, h => by simpa [doubleTimes] using h
  | k + 1, r, R, h => by
    have := doubleTimes_rep k (gejDoubleVar_rep neg7_not_cube h)
    rw [← two_nsmul, ← mul_nsmul'] at this
    rwa [pow_succ]

theorem pippSumLoop_rep {m : ℕ} {bs : List (Gej Fp)} {B : ℕ → Pt} (hb : BRep m bs B) :
    ∀ (k : ℕ) (_ : k < m) {s r : Gej Fp} {S R : Pt} (_ : GejRep 7 s S) (_ : GejRep 7 r R),
    GejRep 7 (pippSumLoop bs k s r).1 (S + ∑ j ∈ range k, B (j + 1)) ∧
      GejRep 7 (pippSumLoop bs k s r).2 (R + k • S + ∑ j ∈ range k, (j + 1) • B (j + 1))
  | 0, _, _, _, _, _, hs, hr => by simpa [pippSumLoop] using ⟨hs, hr⟩
  | k + 1, hk, s, r, S, R, hs, hr => by
    have h1 := gejAddVar_rep neg7_not_cube hs (hb.2 (k + 1) hk)
    have h2 := gejAddVar_rep neg7_not_cube hr h1
    obtain ⟨h3, h4⟩ := pippSumLoop_rep hb k (by omega) h1 h2
    simp only [pippSumLoop]
    rw [sum_range_succ, sum_range_succ]
    constructor
    · convert h3 using 1
      abel
    · convert h4 using 1
      rw [nsmul_add, succ_nsmul S, succ_nsmul (B (k + 1))]
      abel

theorem pippRound_rep {bw i : ℕ} {pts : List (Fn × Ge Fp)} {psl : List PippPoint} {Qs : List Pt}
    (h : List.Forall₂ (PPOk bw pts) psl Qs) {r : Gej Fp} {R : Pt} (hr : GejRep 7 r R) :
    GejRep 7 (pippRound pts psl bw i r) (2 ^ (bw + 1) • R + contribs i psl Qs) := by
  have h0 : BRep (2 ^ bw) (List.replicate (2 ^ bw) (gejInfinity : Gej Fp)) fun _ => 0 := by
    refine ⟨by simp, fun j hj => ?_⟩
    rw [List.getD_eq_getElem?_getD, List.getElem?_replicate, if_pos hj]
    exact gejInfinity_rep 7
  obtain ⟨B, hB, e⟩ := pippBuckets_rep (i := i) h h0
  have e0 : bsum (2 ^ bw) (fun _ => 0) = 0 := by unfold bsum; simp
  rw [e0, zero_add] at e
  have hsz : ecmultTableSize (bw + 2) = 2 ^ bw := rfl
  have hpos : 0 < 2 ^ bw := by positivity
  unfold pippRound
  simp only [hsz]
  obtain ⟨h1, h2⟩ := pippSumLoop_rep hB (2 ^ bw - 1) (by omega) (gejInfinity_rep 7) (doubleTimes_rep bw hr)
  have h3 := gejAddVar_rep neg7_not_cube h1 (hB.2 0 hpos)
  have h4 := gejAddVar_rep neg7_not_cube (gejDoubleVar_rep neg7_not_cube h2) h3
  convert h4 using 1
  rw [← e]
  unfold bsum
  obtain ⟨m, hm⟩ : ∃ m, 2 ^ bw = m + 1 := ⟨2 ^ bw - 1, by omega⟩
  rw [hm, Nat.add_sub_cancel, sum_range_succ', nsmul_zero, zero_add, add_zero, pow_succ, hm]
  have : ∑ k ∈ range m, (2 * (k + 1) + 1) • B (k + 1) =
      ∑ k ∈ range m, (k + 1) • B (k + 1) + ∑ k ∈ range m, (k + 1) • B (k + 1) + ∑ k ∈ range m, B (k + 1) := by
    rw [← sum_add_distrib, ← sum_add_distrib]
    refine sum_congr rfl fun k _ => ?_
    rw [succ_nsmul, two_mul, add_nsmul]
  rw [this, mul_two, add_nsmul]
  simp only [mul_zero, zero_add, one_nsmul]
  abel

theorem pippLoop_rep {bw : ℕ} {pts : List (Fn × Ge Fp)} {psl : List PippPoint} {Qs : List Pt}
    (h : List.Forall₂ (PPOk bw pts) psl Qs) : ∀ (k : ℕ) {r : Gej Fp} {R : Pt} (_ : GejRep 7 r R),
    GejRep 7 (pippLoop pts psl bw k r)
      (2 ^ ((bw + 1) * k) • R + ∑ i ∈ range k, 2 ^ ((bw + 1) * i) • contribs i psl Qs)
  | 0, _, _, hr => by simpa [pippLoop] using hr
  | k + 1, r, R, hr => by
    have := pippLoop_rep h k (pippRound_rep (i := k) h hr)
    simp only [pippLoop]
    convert this using 1
    rw [sum_range_succ, nsmul_add, ← mul_nsmul', ← pow_add]
    have : (bw + 1) * k + (bw + 1) = (bw + 1) * (k + 1) := by ring
    rw [this]
    abel

theorem range_sum_zsmul (f : ℕ → ℤ) (Q : Pt) (N : ℕ) :
    (∑ j ∈ range N, f j) • Q = ∑ j ∈ range N, f j • Q := by
  induction N with
  | zero => simp
  | succ N ih => rw [sum_range_succ, sum_range_succ, add_zsmul, ih]

/-- The value of a prepared point over all rounds. -/
theorem contrib_sum (w N : ℕ) (hN : 0 < N) (ps : PippPoint) (Q : Pt) :
    ∑ i ∈ range N, 2 ^ (w * i) • contrib i ps Q = (wval w ps.wnaf N - ps.skewNa) • Q := by
  unfold contrib wval
  rw [sub_zsmul, range_sum_zsmul]
  have : ∀ i ∈ range N, 2 ^ (w * i) • ((ps.wnaf.getD i 0 - if i = 0 then (ps.skewNa : ℤ) else 0) • Q) =
      (ps.wnaf.getD i 0 * 2 ^ (w * i)) • Q - (if i = 0 then (ps.skewNa : ℤ) • Q else 0) := by
    intro i _
    rw [← natCast_zsmul, ← mul_zsmul']
    by_cases hi : i = 0
    · subst hi
      simp only [if_true, mul_zero, pow_zero, Nat.cast_one, one_mul, mul_one]
      rw [sub_zsmul, sub_eq_add_neg]
    · rw [if_neg hi, if_neg hi, sub_zero, sub_zero]
      push_cast
      rw [mul_comm]
  rw [sum_congr rfl this, sum_sub_distrib, sum_ite_eq' (range N) 0, if_pos (mem_range.2 hN), sub_eq_add_neg]

theorem contribs_sum (w N : ℕ) (hN : 0 < N) : ∀ (psl : List PippPoint) (Qs : List Pt),
    ∑ i ∈ range N, 2 ^ (w * i) • contribs i psl Qs =
      ((psl.zip Qs).map fun a => (wval w a.1.wnaf N - a.1.skewNa) • a.2).sum
  | [], _ => by simp [contribs]
  | _ :: _, [] => by simp [contribs]
  | ps :: psl, Q :: Qs => by
    have : ∀ i, contribs i (ps :: psl) (Q :: Qs) = contrib i ps Q + contribs i psl Qs := fun i => rfl
    simp only [this, nsmul_add]
    rw [sum_add_distrib, contrib_sum w N hN, contribs_sum w N hN psl Qs]
    rfl

/-- The prepared points stand for the same linear combination as the entries. -/
theorem pippPrep_ok {bw : ℕ} (all : List (Fn × Ge Fp)) : ∀ (l : List (Fn × Ge Fp)) (np : ℕ)
    (_ : all.drop np = l) (Ps : List Pt)
    (_ : List.Forall₂ (fun a P => GeRep 7 a.2 P ∧ a.1.val < 2 ^ 128) l Ps),
    ∃ Qs, List.Forall₂ (PPOk bw all) (pippPrep (bw + 1) np l) Qs ∧
      (((pippPrep (bw + 1) np l).zip Qs).map fun a =>
        (wval (bw + 1) a.1.wnaf (wnafSize (bw + 1)) - a.1.skewNa) • a.2).sum =
      ((l.zip Ps).map fun a => a.1.1 • a.2).sum
  | [], _, _, _, _ => ⟨[], by simp [pippPrep], by simp [pippPrep]⟩
  | (sc, pt) :: l, np, hd, _, h => by
    cases h with
    | @cons _ P _ Ps h1 h2 =>
    obtain ⟨hrep, hlt⟩ := h1
    simp only at hrep hlt
    have hd' : all.drop (np + 1) = l := by
      rw [← List.drop_drop, hd]; rfl
    obtain ⟨Qs, hQ, e⟩ := pippPrep_ok all l (np + 1) hd' Ps h2
    simp only [pippPrep]
    split_ifs with hc
    · refine ⟨Qs, hQ, e.trans ?_⟩
      rw [List.zip_cons_cons, List.map_cons, List.sum_cons]
      have : sc • P = 0 := by
        rw [Bool.or_eq_true] at hc
        rcases hc with hc | hc
        · have : sc = 0 := by simpa [scIsZero] using hc
          rw [this, fn_zero_smul]
        · rw [hrep.inf_iff.1 hc, smul_zero]
      rw [this, zero_add]
    · obtain ⟨w1, w2, w3, w4⟩ := wnafFixed_spec (w := bw + 1) (s := sc)
        (old := List.replicate (wnafSize (bw + 1)) 0) hlt (by omega) (by simp)
      refine ⟨P :: Qs, List.Forall₂.cons ⟨?_, w3, w2⟩ hQ, ?_⟩
      · have : all[np]? = some (sc, pt) := by
          rw [← List.head?_drop, hd]; rfl
        simp only [List.getD_eq_getElem?_getD, this, Option.getD_some]
        exact hrep
      · rw [List.zip_cons_cons, List.map_cons, List.sum_cons, e, List.zip_cons_cons, List.map_cons,
          List.sum_cons]
        simp only
        rw [w4, natCast_zsmul, val_smul]

theorem pippengerWnaf_rep {bw : ℕ} {l : List (Fn × Ge Fp)} {Ps : List Pt}
    (h : List.Forall₂ (fun a P => GeRep 7 a.2 P ∧ a.1.val < 2 ^ 128) l Ps) :
    GejRep 7 (pippengerWnaf bw l) ((l.zip Ps).map fun a => a.1.1 • a.2).sum := by
  obtain ⟨Qs, hQ, e⟩ := pippPrep_ok (bw := bw) l l 0 rfl Ps h
  unfold pippengerWnaf
  simp only
  split_ifs with h0
  · have : pippPrep (bw + 1) 0 l = [] := List.length_eq_zero_iff.1 h0
    rw [this] at e
    rw [← e]
    exact gejInfinity_rep 7
  · have := pippLoop_rep hQ (wnafSize (bw + 1)) (gejInfinity_rep 7)
    rw [nsmul_zero, zero_add, contribs_sum _ _ (by unfold wnafSize; positivity), e] at this
    exact this

/-! ### `secp256k1_ecmult_endo_split` -/

theorem geMulLambda_rep7 {g : Ge Fp} {P : Pt} (h : GeRep 7 g P) : GeRep 7 (geMulLambda g) (lam • P) := by
  rw [geMulLambda_eq]
  cases hi : g.infinity
  · obtain ⟨hn, rfl⟩ := h.elim hi
    rw [← endo_eq_smul, endo, Scaling.hom_some]
    exact GeRep.intro rfl (by simp only; ring) (by simp only; ring)
  · have := h.inf_iff.1 hi
    rw [this, smul_zero]
    unfold GeRep; simp

theorem small_high {a : Fn} (h : Small a) :
    (scIsHigh a = true → (-a).val < 2 ^ 128) ∧ (scIsHigh a = false → a.val < 2 ^ 128) := by
  have hn : 2 * 2 ^ 128 < n := by decide +kernel
  have hh := scIsHigh_iff a
  by_cases ha : a = 0
  · subst ha
    simp
  · haveI : NeZero a := ⟨ha⟩
    have e : (-a).val = n - a.val := ZMod.val_neg_of_ne_zero a
    have hlt : a.val < n := ZMod.val_lt a
    unfold Small at h
    refine ⟨fun h1 => ?_, fun h1 => ?_⟩
    · have := hh.1 h1
      omega
    · have : ¬ 2 * a.val > n := fun h2 => by rw [hh.2 h2] at h1; exact Bool.noConfusion h1
      omega

theorem endoNeg_rep {a : Fn} (h : Small a) {g : Ge Fp} {P : Pt} (hg : GeRep 7 g P) :
    ∃ Q, (if scIsHigh a then (-a, geNeg g) else (a, g)).1 • Q = a • P ∧
      GeRep 7 (if scIsHigh a then (-a, geNeg g) else (a, g)).2 Q ∧
      (if scIsHigh a then (-a, geNeg g) else (a, g)).1.val < 2 ^ 128 := by
  obtain ⟨h1, h2⟩ := small_high h
  cases hh : scIsHigh a
  · exact ⟨P, rfl, hg, h2 hh⟩
  · exact ⟨-P, by simp, geNeg_rep hg, h1 hh⟩

/-- `secp256k1_ecmult_endo_split` -/
theorem endoSplit_rep (s : Fn) {g : Ge Fp} {P : Pt} (hg : GeRep 7 g P) :
    ∃ Q1 Q2, GeRep 7 (endoSplit s g).1.2 Q1 ∧ (endoSplit s g).1.1.val < 2 ^ 128 ∧
      GeRep 7 (endoSplit s g).2.2 Q2 ∧ (endoSplit s g).2.1.val < 2 ^ 128 ∧
      (endoSplit s g).1.1 • Q1 + (endoSplit s g).2.1 • Q2 = s • P := by
  obtain ⟨h1, h2, h3⟩ := splitLambda_spec s
  obtain ⟨Q1, e1, r1, l1⟩ := endoNeg_rep h2 hg
  obtain ⟨Q2, e2, r2, l2⟩ := endoNeg_rep h3 (geMulLambda_rep7 hg)
  refine ⟨Q1, Q2, r1, l1, r2, l2, ?_⟩
  unfold endoSplit
  simp only
  rw [e1, e2, ← mul_smul, ← add_smul, mul_comm, h1]

end Secp
