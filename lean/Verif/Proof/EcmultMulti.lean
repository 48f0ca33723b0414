import Verif.Proof.Pippenger
import Verif.Proof.Scratch

/-! # `secp256k1_ecmult_multi_var` with a scratch space -/

namespace Secp
open WeierstrassCurve Model

variable [T : Target]

/-! ### Scratch space -/

/-- A sequence of allocations never calls the error callback, and can be undone. -/
theorem scratchAllocs_inv {al : ℕ} (ha : al ∣ szMod) : ∀ (l : List ℕ) {s : Scratch} (_ : ScratchOk s),
    ∃ b k, scratchAllocs al l s = (b, { s with allocSize := s.allocSize + k }, 0) ∧
      s.allocSize + k ≤ s.maxSize
  | [], s, h => ⟨true, 0, rfl, h.le⟩
  | size :: l, s, h => by
    have hlt : size % szMod < szMod := Nat.mod_lt _ szMod_pos
    simp only [scratchAllocs]
    rw [scratchAlloc_eq ha h hlt]
    have h1 := h.le
    split_ifs with hc
    · obtain ⟨b, k, e, hk⟩ := scratchAllocs_inv ha l
        (s := { s with allocSize := s.allocSize + roundUp al (size % szMod) })
        ⟨h.magic, by simp only; omega, h.lt⟩
      simp only at e hk ⊢
      rw [e]
      refine ⟨b, roundUp al (size % szMod) + k, ?_, by omega⟩
      rw [← add_assoc]
      rfl
    · obtain ⟨b, k, e, hk⟩ := scratchAllocs_inv ha l h
      simp only at e hk ⊢
      rw [e]
      exact ⟨_, k, rfl, hk⟩

/-- The allocations succeed when there is room for their sum and the padding. -/
theorem scratchAllocs_ok {al : ℕ} (ha : al ∣ szMod) : ∀ (l : List ℕ) {s : Scratch} (_ : ScratchOk s)
    (_ : l.sum + l.length * (al - 1) ≤ s.maxSize - s.allocSize), (scratchAllocs al l s).1 = true
  | [], _, _, _ => rfl
  | size :: l, s, h, hs => by
    have hpos : 0 < al := Nat.pos_of_dvd_of_pos ha szMod_pos
    have h3 := h.lt
    have h4 := h.le
    rw [List.sum_cons, List.length_cons, Nat.succ_mul] at hs
    have hlt : size < szMod := by omega
    have hr := roundUp_lt (n := size) hpos
    simp only [scratchAllocs]
    rw [Nat.mod_eq_of_lt hlt, scratchAlloc_eq ha h hlt, if_pos (by omega)]
    simp only [Option.isSome_some, Bool.true_and]
    exact scratchAllocs_ok ha l ⟨h.magic, by simp only; omega, h3⟩ (by simp only; omega)

theorem scratchCheckpoint_eq {s : Scratch} (h : ScratchOk s) : scratchCheckpoint s = (s.allocSize, 0) := by
  unfold scratchCheckpoint
  rw [h.not_bad]
  rfl

/-- Restoring the checkpoint undoes the allocations. -/
theorem scratchRestore {s : Scratch} (h : ScratchOk s) (k : ℕ) :
    scratchApply { s with allocSize := s.allocSize + k } s.allocSize = (s, 0) := by
  have : scratchBad { s with allocSize := s.allocSize + k } = false := h.not_bad
  unfold scratchApply
  rw [this, if_neg (by decide), if_neg (by simp)]

/-! ### The callback -/

omit T in
theorem callbackFor_append {cb : MultiCallback} : ∀ (l1 l2 : List (Fn × Pt)) (idx : ℕ),
    CallbackFor cb idx (l1 ++ l2) ↔ CallbackFor cb idx l1 ∧ CallbackFor cb (idx + l1.length) l2
  | [], _, _ => by simp [CallbackFor]
  | a :: l1, l2, idx => by
    have e : idx + (l1.length + 1) = idx + 1 + l1.length := by omega
    simp only [List.cons_append, CallbackFor, callbackFor_append l1 l2 (idx + 1), and_assoc,
      List.length_cons, e]

/-- `Σ sᵢPᵢ` -/
noncomputable def lincomb (l : List (Fn × Pt)) : Pt := (l.map fun q => q.1 • q.2).sum

omit T in
theorem straussFill_ok {cb : MultiCallback} : ∀ (l : List (Fn × Pt)) (idx : ℕ) (_ : CallbackFor cb idx l),
    ∃ pts, straussFill cb l.length idx = some pts ∧
      List.Forall₂ (fun a P => GejRep 7 a.1 P) pts (l.map Prod.snd) ∧ pts.map Prod.snd = l.map Prod.fst
  | [], _, _ => ⟨[], rfl, by simp, rfl⟩
  | (s, P) :: l, idx, h => by
    obtain ⟨⟨a, h1, h2⟩, h3⟩ := h
    obtain ⟨pts, e, f, g⟩ := straussFill_ok l (idx + 1) h3
    refine ⟨(gejSetGe a, s) :: pts, ?_, List.Forall₂.cons (gejSetGe_rep h2) f, by simp [g]⟩
    simp only [List.length_cons, straussFill, h1, e]

omit T in
theorem straussFill_fail {cb : MultiCallback} : ∀ (k idx : ℕ) (_ : ∃ i < k, cb (idx + i) = none),
    straussFill cb k idx = none
  | 0, _, h => by obtain ⟨i, hi, _⟩ := h; omega
  | k + 1, idx, ⟨i, hi, hc⟩ => by
    simp only [straussFill]
    cases h0 : cb idx with
    | none => rfl
    | some a =>
      cases i with
      | zero => rw [add_zero, h0] at hc; exact absurd hc (by simp)
      | succ i =>
        rw [straussFill_fail k (idx + 1) ⟨i, by omega, by rw [← hc]; congr 1; omega⟩]

omit T in
theorem linComb_zip (l : List (Fn × Pt)) : linComb ((l.map Prod.snd).zip (l.map Prod.fst)) = lincomb l := by
  induction l with
  | nil => rfl
  | cons a l ih =>
    unfold linComb lincomb at *
    simp only [List.map_cons, List.zip_cons_cons, List.sum_cons, ih]

omit T in
theorem pippFill_ok {cb : MultiCallback} : ∀ (l : List (Fn × Pt)) (idx : ℕ) (_ : CallbackFor cb idx l),
    ∃ pts Qs, pippFill cb l.length idx = some pts ∧
      List.Forall₂ (fun a P => GeRep 7 a.2 P ∧ a.1.val < 2 ^ 128) pts Qs ∧
      ((pts.zip Qs).map fun a => a.1.1 • a.2).sum = lincomb l
  | [], _, _ => ⟨[], [], rfl, by simp, rfl⟩
  | (s, P) :: l, idx, h => by
    obtain ⟨⟨a, h1, h2⟩, h3⟩ := h
    obtain ⟨pts, Qs, e, f, g⟩ := pippFill_ok l (idx + 1) h3
    obtain ⟨Q1, Q2, r1, l1, r2, l2, es⟩ := endoSplit_rep s h2
    have hfill : pippFill cb (l.length + 1) idx = some ((endoSplit s a).1 :: (endoSplit s a).2 :: pts) := by
      simp only [pippFill, h1, e]
    rw [List.length_cons, hfill]
    clear hfill
    generalize endoSplit s a = q at *
    refine ⟨q.1 :: q.2 :: pts, Q1 :: Q2 :: Qs, rfl,
      List.Forall₂.cons ⟨r1, l1⟩ (List.Forall₂.cons ⟨r2, l2⟩ f), ?_⟩
    have hl : lincomb ((s, P) :: l) = s • P + lincomb l := by
      unfold lincomb
      rw [List.map_cons, List.sum_cons]
    rw [List.zip_cons_cons, List.zip_cons_cons, List.map_cons, List.map_cons, List.sum_cons, List.sum_cons, g,
      ← add_assoc, es, hl]

omit T in
theorem pippFill_fail {cb : MultiCallback} : ∀ (k idx : ℕ) (_ : ∃ i < k, cb (idx + i) = none),
    pippFill cb k idx = none
  | 0, _, h => by obtain ⟨i, hi, _⟩ := h; omega
  | k + 1, idx, ⟨i, hi, hc⟩ => by
    simp only [pippFill]
    cases h0 : cb idx with
    | none => rfl
    | some a =>
      cases i with
      | zero => rw [add_zero, h0] at hc; exact absurd hc (by simp)
      | succ i =>
        rw [pippFill_fail k (idx + 1) ⟨i, by omega, by rw [← hc]; congr 1; omega⟩]

omit T in
theorem pippFillG_ok (g : Option Fn) : ∃ Qs,
    List.Forall₂ (fun (a : Fn × Ge Fp) P => GeRep 7 a.2 P ∧ a.1.val < 2 ^ 128) (pippFillG (α := Fp) g) Qs ∧
      (((pippFillG (α := Fp) g).zip Qs).map fun a => a.1.1 • a.2).sum = g.getD 0 • G := by
  cases g with
  | none => exact ⟨[], by simp [pippFillG], by simp [pippFillG, fn_zero_smul]⟩
  | some g =>
    obtain ⟨Q1, Q2, r1, l1, r2, l2, es⟩ := endoSplit_rep g geConstG_rep
    have hfill : pippFillG (α := Fp) (some g) = [(endoSplit g geConstG).1, (endoSplit g geConstG).2] := by
      simp only [pippFillG]
    rw [hfill]
    clear hfill
    generalize endoSplit g (geConstG : Ge Fp) = q at *
    refine ⟨[Q1, Q2], List.Forall₂.cons ⟨r1, l1⟩ (List.Forall₂.cons ⟨r2, l2⟩ .nil), ?_⟩
    rw [List.zip_cons_cons, List.zip_cons_cons, List.map_cons, List.map_cons, List.sum_cons, List.sum_cons,
      ← add_assoc, es, Option.getD_some]
    simp only [List.zip_nil_left, List.map_nil, List.sum_nil, add_zero]

/-! ### Batches -/

/-- What a batch function does on `m` points from index `off` on. -/
structure BatchOk (s : Scratch) (g : Option Fn) (cb : MultiCallback) (m off : ℕ) (o : BatchOut Fp) : Prop where
  scratch : o.scratch = s
  errors : o.errors = 0
  rep : ∀ l : List (Fn × Pt), l.length = m → CallbackFor cb off l →
    ∃ r, o.res = some r ∧ GejRep 7 r (lincomb l + g.getD 0 • G)
  fail : (∃ i < m, cb (off + i) = none) → o.res = none

omit T in
theorem target_sizes [Target] : (sizeofGe = 84 ∧ sizeofGej = 124) ∨ (sizeofGe = 88 ∧ sizeofGej = 128) := by
  unfold sizeofGe sizeofGej
  split_ifs
  · exact Or.inl ⟨rfl, rfl⟩
  · exact Or.inr ⟨rfl, rfl⟩

theorem straussBatch_ok {al : ℕ} (ha : al ∣ szMod) {s : Scratch} (h : ScratchOk s) (g : Option Fn)
    (cb : MultiCallback) {m : ℕ} (hm : 1 ≤ m) (hle : m ≤ (straussMaxPoints al s).1) (off : ℕ) :
    BatchOk s g cb m off (straussBatch al s g cb m off) := by
  have hS : straussScratchSize 1 = sizeofGe * 8 + sizeofGej + 1392 := by
    rcases target_sizes with ⟨h1, h2⟩ | ⟨h1, h2⟩ <;> unfold straussScratchSize <;>
      rw [h1, h2, Nat.mod_eq_of_lt (lt_of_lt_of_le (by decide) szMod_big)] <;> rfl
  obtain ⟨S, hsz⟩ : ∃ S, straussScratchSize 1 = S := ⟨_, rfl⟩
  rw [hsz] at hS
  have hfit : m * S ≤ s.maxSize - s.allocSize - 5 * (al - 1) := by
    unfold straussMaxPoints at hle
    simp only [hsz] at hle
    rw [scratchMaxAllocation_eq ha h (lt_of_lt_of_le (by decide) szMod_big)] at hle
    exact (Nat.mul_le_mul_right S hle).trans (Nat.div_mul_le_self _ _)
  unfold straussBatch
  simp only
  rw [if_neg (by omega), scratchCheckpoint_eq h]
  have ht : ecmultTableSize windowA = 8 := rfl
  set sizes := [m * sizeofGej, m * sizeofScalar, m * ecmultTableSize windowA * sizeofFe,
      m * ecmultTableSize windowA * sizeofGe, m * sizeofStraussPoint] with hsizes
  have hok := scratchAllocs_ok ha sizes h (by
    rw [hsizes]
    simp only [List.sum_cons, List.sum_nil, List.length_cons, List.length_nil, ht, sizeofScalar,
      sizeofFe, sizeofStraussPoint]
    rw [hS] at hfit
    rcases target_sizes with ⟨h1, h2⟩ | ⟨h1, h2⟩ <;> rw [h1, h2] at hfit ⊢ <;> omega)
  obtain ⟨b, k, e, _⟩ := scratchAllocs_inv ha sizes h
  rw [e] at hok
  simp only at hok
  rw [e, hok]
  simp only [Bool.not_true, Bool.false_eq_true, if_false, scratchRestore h]
  constructor
  · cases straussFill cb m off <;> rfl
  · cases straussFill cb m off <;> rfl
  · intro l hl hc
    obtain ⟨pts, e1, e2, e3⟩ := straussFill_ok l off hc
    rw [hl] at e1
    rw [e1]
    refine ⟨_, rfl, ?_⟩
    have := strauss_rep e2 g
    rw [e3, linComb_zip] at this
    exact this
  · intro hf
    rw [straussFill_fail m off hf]

/-! #### The number of points for Pippenger's algorithm -/

/-- Twice the size of an entry, as `secp256k1_pippenger_max_points` counts it -/
def pippEntry (bw : ℕ) : ℕ :=
  2 * (sizeofGe + sizeofScalar + sizeofPippPoint + (wnafSize (bw + 1) + 1) * sizeofInt)
def pippOverhead (bw : ℕ) : ℕ := sizeofGej * 2 ^ bw + pippEntry bw + sizeofPippState

theorem pippMaxLoop_le {A : ℕ} : ∀ (k bw res : ℕ) {m : ℕ} (_ : m ≤ pippMaxLoop A k bw res),
    m ≤ res ∨ ∃ b, bw ≤ b ∧ b < bw + k ∧ m ≤ pippBucketWindowInv b ∧
      (pippOverhead b ≤ A ∧ m ≤ (A - pippOverhead b) / pippEntry b) ∧
      ∀ v, bw ≤ v → v < b → pippOverhead v ≤ A ∧ pippBucketWindowInv v ≤ (A - pippOverhead v) / pippEntry v
  | 0, _, _, _, h => Or.inl h
  | k + 1, bw, res, m, h => by
    simp only [pippMaxLoop] at h
    have e1 : 2 * (sizeofGe + sizeofScalar + sizeofPippPoint + (wnafSize (bw + 1) + 1) * sizeofInt) =
      pippEntry bw := rfl
    have e2 : sizeofGej * 2 ^ bw + pippEntry bw + sizeofPippState = pippOverhead bw := rfl
    rw [e1, e2] at h
    by_cases h1 : pippOverhead bw > A
    · rw [if_pos h1] at h
      exact Or.inl h
    rw [if_neg h1] at h
    set f := (if (A - pippOverhead bw) / pippEntry bw > pippBucketWindowInv bw then pippBucketWindowInv bw
      else (A - pippOverhead bw) / pippEntry bw) with hf
    have f1 : f ≤ pippBucketWindowInv bw := by rw [hf]; split_ifs <;> omega
    have f2 : f ≤ (A - pippOverhead bw) / pippEntry bw := by rw [hf]; split_ifs <;> omega
    have base : m ≤ (if f > res then f else res) → m ≤ res ∨ ∃ b, bw ≤ b ∧ b < bw + (k + 1) ∧
        m ≤ pippBucketWindowInv b ∧ (pippOverhead b ≤ A ∧ m ≤ (A - pippOverhead b) / pippEntry b) ∧
      ∀ v, bw ≤ v → v < b → pippOverhead v ≤ A ∧
        pippBucketWindowInv v ≤ (A - pippOverhead v) / pippEntry v := by
      intro hm
      by_cases hr : m ≤ res
      · exact Or.inl hr
      · right
        have : m ≤ f := by split_ifs at hm <;> omega
        exact ⟨bw, le_rfl, by omega, by omega, ⟨by omega, by omega⟩, fun v _ _ => by omega⟩
    by_cases h2 : f < pippBucketWindowInv bw
    · rw [if_pos h2] at h
      exact base h
    rw [if_neg h2] at h
    rcases pippMaxLoop_le k (bw + 1) _ h with h3 | ⟨b, b1, b2, b3, b4, b5⟩
    · exact base h3
    · right
      refine ⟨b, by omega, by omega, b3, b4, fun v hv1 hv2 => ?_⟩
      by_cases hv : v = bw
      · subst hv
        exact ⟨by omega, by omega⟩
      · exact b5 v (by omega) hv2

omit T in
theorem bucketWindow_cases (m : ℕ) : (pippBucketWindow m = 1 ∧ m ≤ 1) ∨ (pippBucketWindow m = 2 ∧ 1 < m ∧ m ≤ 4) ∨
    (pippBucketWindow m = 3 ∧ 4 < m ∧ m ≤ 20) ∨ (pippBucketWindow m = 4 ∧ 20 < m ∧ m ≤ 57) ∨
    (pippBucketWindow m = 5 ∧ 57 < m ∧ m ≤ 136) ∨ (pippBucketWindow m = 6 ∧ 136 < m ∧ m ≤ 235) ∨
    (pippBucketWindow m = 7 ∧ 235 < m ∧ m ≤ 1260) ∨ (pippBucketWindow m = 9 ∧ 1260 < m ∧ m ≤ 4420) ∨
    (pippBucketWindow m = 10 ∧ 4420 < m ∧ m ≤ 7880) ∨ (pippBucketWindow m = 11 ∧ 7880 < m ∧ m ≤ 16050) ∨
    (pippBucketWindow m = 12 ∧ 16050 < m) := by
  unfold pippBucketWindow
  split_ifs <;> omega

theorem bucketWindowInv_values : pippBucketWindowInv 1 = 1 ∧ pippBucketWindowInv 2 = 4 ∧
    pippBucketWindowInv 3 = 20 ∧ pippBucketWindowInv 4 = 57 ∧ pippBucketWindowInv 5 = 136 ∧
    pippBucketWindowInv 6 = 235 ∧ pippBucketWindowInv 7 = 1260 ∧ pippBucketWindowInv 8 = 1260 ∧
    pippBucketWindowInv 9 = 4420 ∧ pippBucketWindowInv 10 = 7880 ∧ pippBucketWindowInv 11 = 16050 ∧
    pippBucketWindowInv 12 = szMod - 1 :=
  ⟨rfl, rfl, rfl, rfl, rfl, rfl, rfl, rfl, rfl, rfl, rfl, rfl⟩

theorem bucketWindow_le {m b : ℕ} (h1 : 1 ≤ b) (h2 : b < 13) (hm : m ≤ pippBucketWindowInv b) :
    pippBucketWindow m ≤ b := by
  obtain ⟨v1, v2, v3, v4, v5, v6, v7, v8, v9, v10, v11, v12⟩ := bucketWindowInv_values
  have hc := bucketWindow_cases m
  have hb : b = 1 ∨ b = 2 ∨ b = 3 ∨ b = 4 ∨ b = 5 ∨ b = 6 ∨ b = 7 ∨ b = 8 ∨ b = 9 ∨ b = 10 ∨ b = 11 ∨ b = 12 := by
    omega
  have hbig := szMod_big
  rcases hb with rfl | rfl | rfl | rfl | rfl | rfl | rfl | rfl | rfl | rfl | rfl | rfl <;> omega

theorem bucketWindow_inv {m : ℕ} (hm : m < szMod) : m ≤ pippBucketWindowInv (pippBucketWindow m) := by
  obtain ⟨v1, v2, v3, v4, v5, v6, v7, v8, v9, v10, v11, v12⟩ := bucketWindowInv_values
  rcases bucketWindow_cases m with h | h | h | h | h | h | h | h | h | h | h <;> rw [h.1] <;> omega

omit T in
theorem bucketWindow_pos (m : ℕ) : 1 ≤ pippBucketWindow m ∧ pippBucketWindow m ≤ 12 := by
  unfold pippBucketWindow
  split_ifs <;> omega

/-- As many points as `secp256k1_pippenger_max_points` says, and fewer, fit. -/
theorem pippMax_fits {A m : ℕ} (hm : 1 ≤ m) (hlt : m < szMod) (h : m ≤ pippMaxLoop A 12 1 0) :
    pippOverhead (pippBucketWindow m) + m * pippEntry (pippBucketWindow m) ≤ A := by
  rcases pippMaxLoop_le 12 1 0 h with h0 | ⟨b, b1, b2, b3, ⟨b4, b4'⟩, b5⟩
  · omega
  have key : ∀ {v : ℕ}, pippOverhead v ≤ A → m ≤ (A - pippOverhead v) / pippEntry v →
      pippOverhead v + m * pippEntry v ≤ A := by
    intro v h1 h2
    have := Nat.div_mul_le_self (A - pippOverhead v) (pippEntry v)
    have := Nat.mul_le_mul_right (pippEntry v) h2
    omega
  have hc := bucketWindow_le b1 b2 b3
  rcases hc.lt_or_eq with hc | hc
  · obtain ⟨h1, h2⟩ := b5 _ (bucketWindow_pos m).1 hc
    exact key h1 ((bucketWindow_inv hlt).trans h2)
  · rw [hc]
    exact key b4 b4'

theorem pippengerBatch_ok {al : ℕ} (ha : al ∣ szMod) {s : Scratch} (h : ScratchOk s) (g : Option Fn)
    (cb : MultiCallback) {m : ℕ} (hm : 1 ≤ m) (hlt : m < szMod) (hle : m ≤ (pippMaxPoints al s).1) (off : ℕ) :
    BatchOk s g cb m off (pippengerBatch al s g cb m off) := by
  have hfit : pippOverhead (pippBucketWindow m) + m * pippEntry (pippBucketWindow m) ≤
      s.maxSize - s.allocSize - 6 * (al - 1) := by
    unfold pippMaxPoints at hle
    simp only at hle
    rw [scratchMaxAllocation_eq ha h (lt_of_lt_of_le (by decide) szMod_big)] at hle
    exact pippMax_fits hm hlt hle
  unfold pippengerBatch
  simp only
  rw [if_neg (by omega), scratchCheckpoint_eq h]
  set bw := pippBucketWindow m with hbw
  set sizes := [(2 * m + 2) * sizeofGe, (2 * m + 2) * sizeofScalar, sizeofPippState,
      (2 * m + 2) * sizeofPippPoint, (2 * m + 2) * wnafSize (bw + 1) * sizeofInt,
      2 ^ bw * sizeofGej] with hsizes
  have hok := scratchAllocs_ok ha sizes h (by
    rw [hsizes]
    unfold pippOverhead pippEntry at hfit
    simp only [List.sum_cons, List.sum_nil, List.length_cons, List.length_nil, sizeofScalar,
      sizeofInt] at hfit ⊢
    have hx : 1 ≤ 2 ^ bw := Nat.one_le_two_pow
    generalize wnafSize (bw + 1) = w at hfit ⊢
    generalize 2 ^ bw = t at hfit hx ⊢
    generalize sizeofPippState = u at hfit ⊢
    generalize sizeofPippPoint = v at hfit ⊢
    generalize sizeofGe = x at hfit ⊢
    generalize sizeofGej = y at hfit ⊢
    have e1 : m * (2 * (x + 32 + v + (w + 1) * 4)) = 2 * (m * x) + 2 * (m * v) + 72 * m + 8 * (m * w) := by ring
    have e2 : (2 * m + 2) * w * 4 = 8 * (m * w) + 8 * w := by ring
    have e3 : (2 * m + 2) * x = 2 * (m * x) + 2 * x := by ring
    have e4 : (2 * m + 2) * v = 2 * (m * v) + 2 * v := by ring
    rw [e1, mul_comm y t] at hfit
    rw [e2, e3, e4]
    omega)
  obtain ⟨b, k, e, _⟩ := scratchAllocs_inv ha sizes h
  rw [e] at hok
  simp only at hok
  rw [e, hok]
  simp only [Bool.not_true, Bool.false_eq_true, if_false, scratchRestore h]
  constructor
  · cases pippFill cb m off <;> rfl
  · cases pippFill cb m off <;> rfl
  · intro l hl hc
    obtain ⟨pts, Qs, e1, e2, e3⟩ := pippFill_ok l off hc
    rw [hl] at e1
    rw [e1]
    refine ⟨_, rfl, ?_⟩
    obtain ⟨Qg, g1, g2⟩ := pippFillG_ok g
    have := pippengerWnaf_rep (bw := bw) (List.rel_append g1 e2)
    rw [List.zip_append g1.length_eq, List.map_append, List.sum_append, g2, e3, add_comm] at this
    exact this
  · intro hf
    rw [pippFill_fail m off hf]

/-! ### Splitting into batches -/

theorem szCeilDiv_eq {x y : ℕ} (h1 : 1 ≤ x) (h2 : x < szMod) : szCeilDiv x y = 1 + (x - 1) / y := by
  unfold szCeilDiv
  rw [szSub_eq h1 h2]
  have := Nat.div_le_self (x - 1) y
  rw [Nat.mod_eq_of_lt (by omega)]

theorem batchSizeHelper_spec {M n nb nbp : ℕ} (hn : 1 ≤ n) (hlt : n < szMod)
    (h : batchSizeHelper M n = some (nb, nbp)) :
    1 ≤ nb ∧ 1 ≤ nbp ∧ nbp ≤ M ∧ (nb - 1) * nbp < n ∧ n ≤ nb * nbp ∧ nbp ≤ n := by
  unfold batchSizeHelper at h
  by_cases h0 : M = 0
  · rw [if_pos h0] at h; exact absurd h (by simp)
  rw [if_neg h0] at h
  simp only at h
  rw [if_neg (by omega)] at h
  set K := (if M > 5000000 then 5000000 else M) with hK
  have k1 : 1 ≤ K := by rw [hK]; split_ifs <;> omega
  have k2 : K ≤ M := by rw [hK]; split_ifs <;> omega
  rw [szCeilDiv_eq hn hlt, szCeilDiv_eq hn hlt] at h
  obtain ⟨rfl, rfl⟩ := Prod.mk.inj (Option.some.inj h)
  have a1 := Nat.div_add_mod (n - 1) K
  have a2 := Nat.mod_lt (n - 1) k1
  obtain ⟨q, hq⟩ : ∃ q, q = (n - 1) / K := ⟨_, rfl⟩
  rw [← hq] at a1 ⊢
  have b1 := Nat.div_add_mod (n - 1) (1 + q)
  have b2 := Nat.mod_lt (n - 1) (y := 1 + q) (by omega)
  have c2 : (n - 1) / (1 + q) ≤ n - 1 := Nat.div_le_self _ _
  obtain ⟨u, hu⟩ : ∃ u, u = (n - 1) / (1 + q) := ⟨_, rfl⟩
  rw [← hu] at b1 c2 ⊢
  have c1 : u < K := by
    rw [hu, Nat.div_lt_iff_lt_mul (by omega), mul_add, mul_one]
    omega
  refine ⟨by omega, by omega, by omega, ?_, ?_, by omega⟩
  · rw [Nat.add_sub_cancel_left]
    have : q * (1 + u) ≤ q * K := Nat.mul_le_mul_left _ (by omega)
    rw [mul_comm q K] at this
    omega
  · rw [mul_add, mul_one]
    omega

omit T in
/-- The arithmetic of one round of the loop over the batches. -/
theorem batch_step {nbp N k i n : ℕ} (h1 : 1 ≤ nbp) (hi : nbp * i + n = N) (hn : n ≤ (k + 1) * nbp)
    (hk : k * nbp < n) :
    let m := if n < nbp then n else nbp
    1 ≤ m ∧ m ≤ nbp ∧ m ≤ n ∧ (m = nbp ∨ n - m = 0) ∧ n - m ≤ k * nbp ∧
      (k ≠ 0 → m = nbp ∧ nbp * (i + 1) + (n - m) = N ∧ (k - 1) * nbp < n - m) := by
  intro m
  have hm : m = if n < nbp then n else nbp := rfl
  have hsucc : (k + 1) * nbp = k * nbp + nbp := by ring
  have hmul : nbp * (i + 1) = nbp * i + nbp := by ring
  refine ⟨by rw [hm]; split_ifs <;> omega, by rw [hm]; split_ifs <;> omega,
    by rw [hm]; split_ifs <;> omega, by rw [hm]; split_ifs <;> omega, by rw [hm]; split_ifs <;> omega, ?_⟩
  intro hk0
  have : nbp ≤ k * nbp := Nat.le_mul_of_pos_left _ (by omega)
  have e : m = nbp := by rw [hm, if_neg (by omega)]
  have : k * nbp = (k - 1) * nbp + nbp := by
    obtain ⟨k', rfl⟩ : ∃ k', k = k' + 1 := ⟨k - 1, by omega⟩
    rw [Nat.add_sub_cancel]; ring
  rw [e]
  exact ⟨rfl, by omega, by omega⟩

theorem batchLoop_clean {f : Scratch → Option Fn → ℕ → ℕ → BatchOut Fp} {s : Scratch} {cb : MultiCallback}
    {nbp N : ℕ} (hN : N < szMod) (h1 : 1 ≤ nbp)
    (hf : ∀ g m off, 1 ≤ m → m ≤ nbp → BatchOk s g cb m off (f s g m off)) (g : Option Fn) :
    ∀ (k i n : ℕ) (_ : k ≠ 0 → nbp * i + n = N) (_ : n ≤ k * nbp) (_ : k ≠ 0 → (k - 1) * nbp < n) (r : Gej Fp),
    let o := batchLoop f g nbp k i n s 0 r
    o.scratch = s ∧ o.errors = 0 ∧ ((∃ j < n, cb (nbp * i + j) = none) → o.res = none)
  | 0, i, n, _, hn, _, r => by
    refine ⟨rfl, rfl, fun ⟨j, hj, _⟩ => by omega⟩
  | k + 1, i, n, hi, hn, hk, r => by
    obtain ⟨m1, m2, m3, m4, m5, m6⟩ := batch_step h1 (hi (by omega)) hn (hk (by omega))
    have hi' := hi (by omega)
    simp only [batchLoop]
    set m := (if n < nbp then n else nbp) with hm
    rw [Nat.mod_eq_of_lt (show nbp * i < szMod by omega), Nat.zero_add]
    have B := hf (if i = 0 then g else none) m (nbp * i) m1 m2
    set o := f s (if i = 0 then g else none) m (nbp * i) with ho
    rw [B.scratch, B.errors]
    cases hres : o.res with
    | none => exact ⟨rfl, rfl, fun _ => rfl⟩
    | some tmp =>
      simp only
      obtain ⟨a1, a2, a3⟩ := batchLoop_clean hN h1 hf g k (i + 1) (n - m) (fun hk0 => (m6 hk0).2.1) m5
        (fun hk0 => (m6 hk0).2.2) (gejAddVar r tmp).1
      refine ⟨a1, a2, fun ⟨j, hj, hcb⟩ => ?_⟩
      by_cases hjm : j < m
      · have := B.fail ⟨j, hjm, hcb⟩
        rw [hres] at this
        exact absurd this (by simp)
      · have e : m = nbp := by omega
        refine a3 ⟨j - m, by omega, ?_⟩
        rw [← hcb]
        congr 1
        rw [mul_add, mul_one]
        omega

omit T in
theorem lincomb_append (a b : List (Fn × Pt)) : lincomb (a ++ b) = lincomb a + lincomb b := by
  unfold lincomb
  rw [List.map_append, List.sum_append]

theorem batchLoop_rep {f : Scratch → Option Fn → ℕ → ℕ → BatchOut Fp} {s : Scratch} {cb : MultiCallback}
    {nbp N : ℕ} (hN : N < szMod) (h1 : 1 ≤ nbp)
    (hf : ∀ g m off, 1 ≤ m → m ≤ nbp → BatchOk s g cb m off (f s g m off)) (g : Option Fn) :
    ∀ (k i n : ℕ) (_ : k ≠ 0 → nbp * i + n = N) (_ : n ≤ k * nbp) (_ : k ≠ 0 → (k - 1) * nbp < n)
      (r : Gej Fp) (R : Pt) (_ : GejRep 7 r R) (l : List (Fn × Pt)) (_ : l.length = n)
      (_ : CallbackFor cb (nbp * i) l),
    ∃ r', (batchLoop f g nbp k i n s 0 r).res = some r' ∧
      GejRep 7 r' (R + lincomb l + if i = 0 ∧ k ≠ 0 then g.getD 0 • G else 0)
  | 0, i, n, _, hn, _, r, R, hr, l, hl, _ => by
    have : n = 0 := by omega
    subst this
    refine ⟨r, rfl, ?_⟩
    obtain rfl := List.length_eq_zero_iff.1 hl
    simpa [lincomb] using hr
  | k + 1, i, n, hi, hn, hk, r, R, hr, l, hl, hc => by
    obtain ⟨m1, m2, m3, m4, m5, m6⟩ := batch_step h1 (hi (by omega)) hn (hk (by omega))
    have hi' := hi (by omega)
    simp only [batchLoop]
    set m := (if n < nbp then n else nbp) with hm
    rw [Nat.mod_eq_of_lt (show nbp * i < szMod by omega), Nat.zero_add]
    have B := hf (if i = 0 then g else none) m (nbp * i) m1 m2
    set o := f s (if i = 0 then g else none) m (nbp * i) with ho
    rw [B.scratch, B.errors]
    rw [← List.take_append_drop m l, callbackFor_append] at hc
    have hlen : (l.take m).length = m := by rw [List.length_take]; omega
    obtain ⟨tmp, e1, e2⟩ := B.rep _ hlen hc.1
    rw [e1]
    simp only
    have hc2 : CallbackFor cb (nbp * (i + 1)) (l.drop m) := by
      rcases m4 with h | h
      · have := hc.2
        rw [hlen, h] at this
        rw [mul_add, mul_one, h]
        exact this
      · have : l.drop m = [] := List.drop_eq_nil_iff.2 (by omega)
        rw [this]
        trivial
    obtain ⟨r', f1, f2⟩ := batchLoop_rep hN h1 hf g k (i + 1) (n - m) (fun hk0 => (m6 hk0).2.1) m5
      (fun hk0 => (m6 hk0).2.2) _ _ (gejAddVar_rep neg7_not_cube hr e2) (l.drop m)
      (by rw [List.length_drop]; omega) hc2
    refine ⟨r', f1, ?_⟩
    convert f2 using 1
    rw [if_neg (by omega : ¬ (i + 1 = 0 ∧ k ≠ 0))]
    conv_lhs => rw [← List.take_append_drop m l, lincomb_append]
    by_cases h0 : i = 0
    · rw [if_pos ⟨h0, by omega⟩, if_pos h0]
      abel
    · rw [if_neg (fun h => h0 h.1), if_neg h0, Option.getD_none, fn_zero_smul]
      abel

/-- All batches together. -/
theorem batchLoop_ok {f : Scratch → Option Fn → ℕ → ℕ → BatchOut Fp} {s : Scratch} {cb : MultiCallback}
    {M n nb nbp : ℕ} (hn : 1 ≤ n) (hlt : n < szMod) (h : batchSizeHelper M n = some (nb, nbp))
    (hf : ∀ g m off, 1 ≤ m → m < szMod → m ≤ M → BatchOk s g cb m off (f s g m off)) (g : Option Fn) :
    BatchOk s g cb n 0 (batchLoop f g nbp nb 0 n s 0 gejInfinity) := by
  obtain ⟨b1, b2, b3, b4, b5, b6⟩ := batchSizeHelper_spec hn hlt h
  have hf' : ∀ g m off, 1 ≤ m → m ≤ nbp → BatchOk s g cb m off (f s g m off) :=
    fun g m off h1 h2 => hf g m off h1 (by omega) (h2.trans b3)
  obtain ⟨c1, c2, c3⟩ := batchLoop_clean hlt b2 hf' g nb 0 n (fun _ => by omega) b5 (fun _ => b4) gejInfinity
  refine ⟨c1, c2, fun l hl hc => ?_, fun hc => c3 ?_⟩
  · obtain ⟨r, e, hr⟩ := batchLoop_rep hlt b2 hf' g nb 0 n (fun _ => by omega) b5 (fun _ => b4) gejInfinity 0
      (gejInfinity_rep 7) l hl (by rw [mul_zero]; exact hc)
    rw [zero_add, if_pos ⟨rfl, by omega⟩] at hr
    exact ⟨r, e, hr⟩
  · rw [mul_zero]
    exact hc

omit T in
theorem multiSimpleLoop_fail {cb : MultiCallback} : ∀ (k idx : ℕ) (r : Gej Fp)
    (_ : ∃ i < k, cb (idx + i) = none), multiSimpleLoop cb k idx r = none
  | 0, _, _, h => by obtain ⟨i, hi, _⟩ := h; omega
  | k + 1, idx, r, ⟨i, hi, hc⟩ => by
    simp only [multiSimpleLoop]
    cases h0 : cb idx with
    | none => rfl
    | some a =>
      cases i with
      | zero => rw [add_zero, h0] at hc; exact absurd hc (by simp)
      | succ i =>
        exact multiSimpleLoop_fail k (idx + 1) _ ⟨i, by omega, by rw [← hc]; congr 1; omega⟩

omit T in
theorem multiSimple_ok (s : Scratch) (g : Option Fn) (cb : MultiCallback) (n : ℕ) :
    BatchOk s g cb n 0 ⟨ecmultMultiSimpleVar g cb n, s, 0⟩ := by
  refine ⟨rfl, rfl, fun l hl hc => ?_, fun hc => multiSimpleLoop_fail n 0 _ hc⟩
  have h0 := ecmult_rep (gejInfinity_rep (7 : Fp)) 0 g
  rw [fn_zero_smul, zero_add] at h0
  obtain ⟨r, e, hr⟩ := multiSimpleLoop_rep l 0 _ _ hc h0
  rw [hl] at e
  exact ⟨r, e, by rw [add_comm]; exact hr⟩

/-- `secp256k1_ecmult_multi_var` with a scratch space -/
theorem ecmultMultiVar_ok {al : ℕ} (ha : al ∣ szMod) {s : Scratch} (h : ScratchOk s) (g : Option Fn)
    (cb : MultiCallback) {n : ℕ} (hlt : n < szMod) : BatchOk s g cb n 0 (ecmultMultiVar al s g cb n) := by
  unfold ecmultMultiVar
  by_cases h0 : g = none ∧ n = 0
  · rw [if_pos h0]
    obtain ⟨rfl, rfl⟩ := h0
    refine ⟨rfl, rfl, fun l hl _ => ⟨_, rfl, ?_⟩, fun ⟨i, hi, _⟩ => by omega⟩
    obtain rfl := List.length_eq_zero_iff.1 hl
    simpa [fn_zero_smul, lincomb] using gejInfinity_rep (7 : Fp)
  rw [if_neg h0]
  by_cases h1 : n = 0
  · rw [if_pos h1]
    subst h1
    refine ⟨rfl, rfl, fun l hl _ => ⟨_, rfl, ?_⟩, fun ⟨i, hi, _⟩ => by omega⟩
    obtain rfl := List.length_eq_zero_iff.1 hl
    have h0 := ecmult_rep (gejInfinity_rep (7 : Fp)) 0 g
    rw [fn_zero_smul, zero_add] at h0
    simpa [lincomb] using h0
  rw [if_neg h1]
  have e1 : (pippMaxPoints al s).2 = 0 := by
    unfold pippMaxPoints
    simp only
    rw [scratchMaxAllocation_eq ha h (lt_of_lt_of_le (by decide) szMod_big)]
  have e2 : (straussMaxPoints al s).2 = 0 := by
    unfold straussMaxPoints
    simp only
    rw [scratchMaxAllocation_eq ha h (lt_of_lt_of_le (by decide) szMod_big)]
  simp only [e1, e2, add_zero]
  cases hb : batchSizeHelper (pippMaxPoints al s).1 n with
  | none => exact multiSimple_ok s g cb n
  | some a =>
    obtain ⟨nb, nbp⟩ := a
    simp only
    split_ifs with hc
    · exact batchLoop_ok (by omega) hlt hb
        (fun g m off m1 m2 m3 => pippengerBatch_ok ha h g cb m1 m2 m3 off) g
    · cases hb2 : batchSizeHelper (straussMaxPoints al s).1 n with
      | none => exact multiSimple_ok s g cb n
      | some a =>
        obtain ⟨nb, nbp⟩ := a
        exact batchLoop_ok (by omega) hlt hb2 (fun g m off m1 _ m3 => straussBatch_ok ha h g cb m1 m3 off) g

end Secp
