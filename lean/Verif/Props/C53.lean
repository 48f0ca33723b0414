import Verif.Proof.EcmultMulti
import Verif.Props.C54

/-!
# C53: multi-point multiplication

For every list of scalars and points handed out by the callback, every optional scalar of the generator and
every scratch space - of any size, with anything allocated before, or none at all - on every target the result is
`Σ sᵢ Pᵢ + g G`, the scratch space is left as it was found and the error callback is not called.  This covers
all three algorithms, the choice between them and the division into batches.
-/

namespace Secp
open WeierstrassCurve Model

variable [Target]

/-- The callback hands out the `i`-th scalar and a structure for the `i`-th point of the list. -/
def HandsOut (cb : MultiCallback) (l : List (Fn × Pt)) : Prop :=
  ∀ i s P, l[i]? = some (s, P) → ∃ a, cb i = some (s, a) ∧ GeRep 7 a P

omit [Target] in
theorem handsOut_callbackFor {cb : MultiCallback} : ∀ (l : List (Fn × Pt)) (idx : ℕ)
    (_ : ∀ i s P, l[i]? = some (s, P) → ∃ a, cb (idx + i) = some (s, a) ∧ GeRep 7 a P), CallbackFor cb idx l
  | [], _, _ => trivial
  | (s, P) :: l, idx, h => by
    refine ⟨h 0 s P rfl, handsOut_callbackFor l (idx + 1) fun i s P hi => ?_⟩
    obtain ⟨a, h1, h2⟩ := h (i + 1) s P hi
    exact ⟨a, by rw [← h1]; congr 1; omega, h2⟩

omit [Target] in
theorem HandsOut.callbackFor {cb : MultiCallback} {l : List (Fn × Pt)} (h : HandsOut cb l) :
    CallbackFor cb 0 l :=
  handsOut_callbackFor l 0 fun i s P hi => by rw [Nat.zero_add]; exact h i s P hi

/-- With a scratch space. -/
theorem C53_multi {al : ℕ} (ha : AlignOk al) {s : Scratch} (h : ScratchOk s) {cb : MultiCallback}
    {l : List (Fn × Pt)} (hl : l.length < szMod) (hc : HandsOut cb l) (g : Option Fn) :
    ∃ r, ecmultMultiVar al s g cb l.length = ⟨some r, s, 0⟩ ∧
      GejRep 7 r ((l.map fun a => a.1 • a.2).sum + g.getD 0 • G) := by
  have B := ecmultMultiVar_ok ha.dvd h g cb hl
  obtain ⟨r, e, hr⟩ := B.rep l rfl hc.callbackFor
  refine ⟨r, ?_, hr⟩
  have h1 := B.scratch
  have h2 := B.errors
  cases ho : ecmultMultiVar al s g cb l.length
  rw [ho] at e h1 h2
  simp only at e h1 h2
  rw [e, h1, h2]

omit [Target] in
/-- Without a scratch space. -/
theorem C53_no_scratch {cb : MultiCallback} {l : List (Fn × Pt)} (hc : HandsOut cb l) (g : Option Fn) :
    ∃ r, ecmultMultiVarNull g cb l.length = some r ∧
      GejRep 7 r ((l.map fun a => a.1 • a.2).sum + g.getD 0 • G) :=
  ecmultMultiVarNull_rep hc.callbackFor g

/-- When the callback fails for one of the points, so does the multiplication, and the scratch space is as
before also then. -/
theorem C53_callback_failure {al : ℕ} (ha : AlignOk al) {s : Scratch} (h : ScratchOk s) {cb : MultiCallback}
    {n i : ℕ} (hn : n < szMod) (hi : i < n) (hc : cb i = none) (g : Option Fn) :
    ecmultMultiVar al s g cb n = ⟨none, s, 0⟩ ∧ ecmultMultiVarNull g cb n = none := by
  constructor
  · have B := ecmultMultiVar_ok ha.dvd h g cb hn
    have e := B.fail ⟨i, hi, by rw [Nat.zero_add]; exact hc⟩
    have h1 := B.scratch
    have h2 := B.errors
    cases ho : ecmultMultiVar al s g cb n
    rw [ho] at e h1 h2
    simp only at e h1 h2
    rw [e, h1, h2]
  · unfold ecmultMultiVarNull
    rw [if_neg (by omega), if_neg (by omega)]
    exact multiSimpleLoop_fail n 0 _ ⟨i, hi, by rw [Nat.zero_add]; exact hc⟩

/-- The scratch space is as before and the error callback is not called whatever the callback returns. -/
theorem C53_scratch_unchanged {al : ℕ} (ha : AlignOk al) {s : Scratch} (h : ScratchOk s) (cb : MultiCallback)
    {n : ℕ} (hn : n < szMod) (g : Option Fn) :
    (ecmultMultiVar al s g cb n).scratch = s ∧ (ecmultMultiVar al s g cb n).errors = 0 :=
  ⟨(ecmultMultiVar_ok ha.dvd h g cb hn).scratch, (ecmultMultiVar_ok ha.dvd h g cb hn).errors⟩

/-- The same for the two batch functions and any number of points, also when the scratch space is too
small for them and an allocation fails half way. -/
theorem C53_batch_restores {al : ℕ} (ha : AlignOk al) {s : Scratch} (h : ScratchOk s) (cb : MultiCallback)
    (m off : ℕ) (g : Option Fn) :
    ((straussBatch al s g cb m off).scratch = s ∧ (straussBatch al s g cb m off).errors = 0) ∧
      (pippengerBatch al s g cb m off).scratch = s ∧ (pippengerBatch al s g cb m off).errors = 0 := by
  constructor
  · unfold straussBatch
    simp only
    by_cases hz : g = none ∧ m = 0
    · rw [if_pos hz, scratchCheckpoint_eq h]; exact ⟨rfl, rfl⟩
    · rw [if_neg hz, scratchCheckpoint_eq h]
      generalize [m * sizeofGej, m * sizeofScalar, m * ecmultTableSize windowA * sizeofFe,
        m * ecmultTableSize windowA * sizeofGe, m * sizeofStraussPoint] = sizes
      obtain ⟨b, k, e, _⟩ := scratchAllocs_inv ha.dvd sizes h
      rw [e]
      simp only [scratchRestore h]
      cases b
      · exact ⟨rfl, rfl⟩
      · cases straussFill cb m off <;> exact ⟨rfl, rfl⟩
  · unfold pippengerBatch
    simp only
    by_cases hz : g = none ∧ m = 0
    · rw [if_pos hz, scratchCheckpoint_eq h]; exact ⟨rfl, rfl⟩
    · rw [if_neg hz, scratchCheckpoint_eq h]
      generalize [(2 * m + 2) * sizeofGe, (2 * m + 2) * sizeofScalar, sizeofPippState,
        (2 * m + 2) * sizeofPippPoint, (2 * m + 2) * wnafSize (pippBucketWindow m + 1) * sizeofInt,
        2 ^ pippBucketWindow m * sizeofGej] = sizes
      obtain ⟨b, k, e, _⟩ := scratchAllocs_inv ha.dvd sizes h
      rw [e]
      simp only [scratchRestore h]
      cases b
      · exact ⟨rfl, rfl⟩
      · cases pippFill cb m off <;> exact ⟨rfl, rfl⟩

/-- Any number of points up to the one `secp256k1_pippenger_max_points` announces can be used in one
batch. -/
theorem C53_pippenger {al : ℕ} (ha : AlignOk al) {s : Scratch} (h : ScratchOk s) {cb : MultiCallback}
    {l : List (Fn × Pt)} (hl : l.length < szMod) (h1 : 1 ≤ l.length)
    (hmax : l.length ≤ (pippMaxPoints al s).1) (hc : HandsOut cb l) (g : Option Fn) :
    ∃ r, pippengerBatch al s g cb l.length 0 = ⟨some r, s, 0⟩ ∧
      GejRep 7 r ((l.map fun a => a.1 • a.2).sum + g.getD 0 • G) := by
  have B := pippengerBatch_ok ha.dvd h g cb h1 hl hmax 0
  obtain ⟨r, e, hr⟩ := B.rep l rfl hc.callbackFor
  refine ⟨r, ?_, hr⟩
  have h1 := B.scratch
  have h2 := B.errors
  cases ho : pippengerBatch al s g cb l.length 0
  rw [ho] at e h1 h2
  simp only at e h1 h2
  rw [e, h1, h2]

/-- Any number of points up to the one `secp256k1_strauss_max_points` announces can be used in one
batch. -/
theorem C53_strauss {al : ℕ} (ha : AlignOk al) {s : Scratch} (h : ScratchOk s) {cb : MultiCallback}
    {l : List (Fn × Pt)} (h1 : 1 ≤ l.length)
    (hmax : l.length ≤ (straussMaxPoints al s).1) (hc : HandsOut cb l) (g : Option Fn) :
    ∃ r, straussBatch al s g cb l.length 0 = ⟨some r, s, 0⟩ ∧
      GejRep 7 r ((l.map fun a => a.1 • a.2).sum + g.getD 0 • G) := by
  have B := straussBatch_ok ha.dvd h g cb h1 hmax 0
  obtain ⟨r, e, hr⟩ := B.rep l rfl hc.callbackFor
  refine ⟨r, ?_, hr⟩
  have h1 := B.scratch
  have h2 := B.errors
  cases ho : straussBatch al s g cb l.length 0
  rw [ho] at e h1 h2
  simp only at e h1 h2
  rw [e, h1, h2]

omit [Target] in
/-- The core of Pippenger's algorithm, for every bucket window. -/
theorem C53_pippenger_wnaf (bw : ℕ) {l : List (Fn × Ge Fp)} {Ps : List Pt}
    (h : List.Forall₂ (fun a P => GeRep 7 a.2 P) l Ps) (hs : ∀ a ∈ l, a.1.val < 2 ^ 128) :
    GejRep 7 (pippengerWnaf bw l) ((l.zip Ps).map fun a => a.1.1 • a.2).sum := by
  refine pippengerWnaf_rep ?_
  induction h with
  | nil => exact .nil
  | cons h1 _ ih =>
    exact .cons ⟨h1, hs _ (by simp)⟩ (ih fun a ha => hs a (by simp [ha]))

omit [Target] in
/-- The fixed-size wNAF, whatever the array contained before: exactly `⌈128/w⌉` digits, each of them 0 or odd
and between `-2^w` and `2^w`; with the skew, which is 0 or 1, they represent the scalar. -/
theorem C53_wnaf_fixed {w : ℕ} (hw : 1 ≤ w) {s : Fn} (hs : s.val < 2 ^ 128) {old : List ℤ}
    (ho : old.length = wnafSize w) {wnaf : List ℤ} {skew : ℕ} (e : wnafFixed old s w = (wnaf, skew)) :
    wnaf.length = wnafSize w ∧ (skew = 0 ∨ skew = 1) ∧
      (∀ d ∈ wnaf, d = 0 ∨ (d % 2 = 1 ∧ -2 ^ w < d ∧ d < 2 ^ w)) ∧
      wnaf.foldr (fun d acc : ℤ => d + 2 ^ w * acc) 0 - (skew : ℤ) = (s.val : ℤ) := by
  obtain ⟨h1, h2, h3, h4⟩ := wnafFixed_spec hs hw ho
  rw [e] at h1 h2 h3 h4
  simp only at h1 h2 h3 h4
  refine ⟨h1, by omega, ?_, ?_⟩
  · intro d hd
    obtain ⟨j, hj, rfl⟩ := List.getElem_of_mem hd
    have := h3 j
    rw [List.getD_eq_getElem?_getD, List.getElem?_eq_getElem hj, Option.getD_some] at this
    unfold DigitF at this
    rw [abs_lt] at this
    exact this
  · rw [← h4, ← h1]
    congr 1
    clear e h1 h2 h3 h4
    induction wnaf with
    | nil => rfl
    | cons a l ih =>
      rw [List.foldr_cons, ih]
      unfold wval
      rw [List.length_cons, Finset.sum_range_succ', Finset.mul_sum, add_comm]
      congr 1
      · refine Finset.sum_congr rfl fun j _ => ?_
        rw [List.getD_cons_succ, mul_add, mul_one, pow_add]
        ring
      · simp

/-! ### Concrete cases -/

/-- Every algorithm and more than one batch occur. -/
def exScratch (size : ℕ) : Scratch := (scratchCreate 16 size).1

theorem exScratch_ok {size : ℕ} (h : size < szMod) : ScratchOk (exScratch size) := ⟨rfl, Nat.zero_le _, h⟩

example : AlignOk 16 := .of_small (k := 4) (by decide)

/-- 1000 points on a space of 200000 bytes: three batches of at most 334 points with Pippenger's algorithm. -/
example : ∀ word32 field26 : Bool, letI : Target := ⟨word32, field26⟩
    batchSizeHelper (pippMaxPoints 16 (exScratch 200000)).1 1000 = some (3, 334) := by decide +kernel
/-- How many points fit depends on the target. -/
example : ((letI : Target := ⟨false, false⟩; (pippMaxPoints 16 (exScratch 200000)).1) = 448) ∧
    (letI : Target := ⟨true, true⟩; (pippMaxPoints 16 (exScratch 200000)).1) = 478 := by decide +kernel
/-- 10 points on 10000 bytes: three batches with Strauss' algorithm. -/
example : ∀ word32 field26 : Bool, letI : Target := ⟨word32, field26⟩
    batchSizeHelper (pippMaxPoints 16 (exScratch 10000)).1 10 = some (1, 10) ∧
    batchSizeHelper (straussMaxPoints 16 (exScratch 10000)).1 10 = some (3, 4) := by decide +kernel
/-- 1000 bytes: no room for any of the two. -/
example : ∀ word32 field26 : Bool, letI : Target := ⟨word32, field26⟩
    batchSizeHelper (pippMaxPoints 16 (exScratch 1000)).1 10 = none := by decide +kernel

/-- A callback for any list of multiples of the generator. -/
example (l : List Fn) : ∃ cb, HandsOut cb (l.map fun s => (s, G)) := by
  refine ⟨fun i => l[i]?.map fun s => (s, geConstG), fun i s P hi => ?_⟩
  rw [List.getElem?_map] at hi
  cases h : l[i]? with
  | none => rw [h] at hi; exact absurd hi (by simp)
  | some a =>
    rw [h] at hi
    obtain ⟨rfl, rfl⟩ := Prod.mk.inj (Option.some.inj hi)
    exact ⟨geConstG, by simp [h], geConstG_rep⟩

/-- `2·G + 3·G + 1·G` -/
example : ∃ cb r, ecmultMultiVar 16 (exScratch 10000) (some 1) cb 2 = ⟨some r, exScratch 10000, 0⟩ ∧
    GejRep 7 r ((6 : Fn) • G) := by
  have hc : HandsOut (fun i => [(2, geConstG), (3, geConstG)][i]?) [((2 : Fn), G), (3, G)] := by
    intro i s P hi
    match i, hi with
    | 0, hi =>
      obtain ⟨rfl, rfl⟩ := Prod.mk.inj (Option.some.inj hi)
      exact ⟨geConstG, rfl, geConstG_rep⟩
    | 1, hi =>
      obtain ⟨rfl, rfl⟩ := Prod.mk.inj (Option.some.inj hi)
      exact ⟨geConstG, rfl, geConstG_rep⟩
  obtain ⟨r, e, hr⟩ := C53_multi (al := 16) (.of_small (k := 4) (by decide))
    (exScratch_ok (size := 10000) (lt_of_lt_of_le (by decide) szMod_big))
    (lt_of_lt_of_le (by decide) szMod_big) hc (some 1)
  refine ⟨_, r, e, ?_⟩
  convert hr using 1
  simp only [List.map_cons, List.map_nil, List.sum_cons, List.sum_nil, add_zero, Option.getD_some]
  rw [← add_smul, ← add_smul]
  congr 1
  norm_num

end Secp
