import Verif.Model.MultiSimple
import Verif.Model.Scratch
import Verif.Model.EcmultGen

/-!
# Model of the multi-point multiplication with a scratch space (`/repo/src/ecmult_impl.h:361-851`)

Polymorphic in the representation of field elements (`FeOps`).  The arrays on the scratch space are lists; the allocations that hold them
are modelled by their sizes (`Verif/Model/Scratch.lean`).  An index outside an array reads garbage and a
write there is lost, so that no correctness theorem could hold if the code did either.  `int` arithmetic is
exact: all values are below `2^14` in absolute value.  `size_t` arithmetic wraps around.
-/

namespace Secp.Model

open FeOps

variable {α : Type} [FeOps α]

/-- `WNAF_BITS`, ecmult_impl.h:44 -/
def wnafBits : Nat := 128
/-- `WNAF_SIZE(w)`, ecmult_impl.h:45-46 with `CEIL_DIV`, util.h:180 -/
def wnafSize (w : Nat) : Nat := 1 + (wnafBits - 1) / w

/-- `secp256k1_scalar_get_bits_var(work, pos * w, pos == WNAF_SIZE(w)-1 ? last_w : w)`,
ecmult_impl.h:447 and 457, with `last_w` from line 442 -/
def wnafFixedBits (s : Fn) (w pos : Nat) : Nat :=
  let lastW := wnafBits - (wnafSize w - 1) * w
  scGetBits s (pos * w) (if pos = wnafSize w - 1 then lastW else w)

/-- The first loop of `secp256k1_wnaf_fixed`, ecmult_impl.h:446-452, from the position `pos` down: the
array and `max_pos`. -/
def wnafFixedTop (s : Fn) (w : Nat) : Nat → List Int → List Int × Nat
  | 0, wnaf => (wnaf, 0)
  | pos + 1, wnaf =>
    if wnafFixedBits s w (pos + 1) ≠ 0 then (wnaf, pos + 1)
    else wnafFixedTop s w pos (wnaf.set (pos + 1) 0)

/-- Body of the second loop of `secp256k1_wnaf_fixed`, ecmult_impl.h:457-477. -/
def wnafFixedStep (s : Fn) (w pos : Nat) (wnaf : List Int) : List Int :=
  let val := wnafFixedBits s w pos
  let wnaf :=
    if val % 2 = 0 then
      (wnaf.set (pos - 1) (wnaf.getD (pos - 1) 0 - 2 ^ w)).set pos (val + 1)
    else wnaf.set pos val
  if pos ≥ 2 ∧ ((wnaf.getD (pos - 1) 0 = 1 ∧ wnaf.getD (pos - 2) 0 < 0) ∨
      (wnaf.getD (pos - 1) 0 = -1 ∧ wnaf.getD (pos - 2) 0 > 0)) then
    let wnaf :=
      if wnaf.getD (pos - 1) 0 = 1 then wnaf.set (pos - 2) (wnaf.getD (pos - 2) 0 + 2 ^ w)
      else wnaf.set (pos - 2) (wnaf.getD (pos - 2) 0 - 2 ^ w)
    wnaf.set (pos - 1) 0
  else wnaf

/-- The second loop, ecmult_impl.h:456-478: `k` rounds, the next one for `pos`. -/
def wnafFixedLoop (s : Fn) (w : Nat) : Nat → Nat → List Int → List Int
  | 0, _, wnaf => wnaf
  | k + 1, pos, wnaf => wnafFixedLoop s w k (pos + 1) (wnafFixedStep s w pos wnaf)

/-- `secp256k1_wnaf_fixed`, ecmult_impl.h:421-481: the array of `WNAF_SIZE(w)` words, which held `old`,
and the skew. -/
def wnafFixed (old : List Int) (s : Fn) (w : Nat) : List Int × Nat :=
  if scIsZero s then (List.replicate (wnafSize w) 0, 0)
  else
    let skew : Nat := if s.val % 2 = 0 then 1 else 0
    let wnaf := old.set 0 ((scGetBits s 0 w + skew : Nat) : Int)
    let t := wnafFixedTop s w (wnafSize w - 1) wnaf
    (wnafFixedLoop s w t.2 1 t.1, skew)

/-- `struct secp256k1_pippenger_point_state`, ecmult_impl.h:483-486, with the row of `wnaf_na` that
belongs to it (`wnaf_na[no*n_wnaf]` and the following `n_wnaf` words). -/
structure PippPoint where
  skewNa : Nat
  inputPos : Nat
  wnaf : List Int

/-- The first loop of `secp256k1_ecmult_pippenger_wnaf`, ecmult_impl.h:507-514, from the entry `np` on.
The memory from the scratch space is zero before. -/
def pippPrep (w : Nat) : Nat → List (Fn × Ge α) → List PippPoint
  | _, [] => []
  | np, (sc, pt) :: rest =>
    if scIsZero sc || pt.infinity then pippPrep w (np + 1) rest
    else
      let f := wnafFixed (List.replicate (wnafSize w) 0) sc w
      ⟨f.2, np, f.1⟩ :: pippPrep w (np + 1) rest

/-- What an out-of-bounds read of a bucket yields in the model. -/
def gejGarbage : Gej α := ⟨setInt 0, setInt 0, setInt 0, false⟩

/-- `secp256k1_gej_add_ge_var(&buckets[idx], &buckets[idx], a, NULL)` -/
def bucketAdd (buckets : List (Gej α)) (idx : Nat) (a : Ge α) : List (Gej α) :=
  buckets.set idx (gejAddGeVar (buckets.getD idx gejGarbage) a).1

/-- Body of the loop over the points, ecmult_impl.h:528-550. -/
def pippBucket (pts : List (Fn × Ge α)) (i : Nat) (buckets : List (Gej α)) (ps : PippPoint) :
    List (Gej α) :=
  let d := ps.wnaf.getD i 0
  let pt := (pts.getD ps.inputPos (0, geGarbage)).2
  let buckets := if i = 0 ∧ ps.skewNa ≠ 0 then bucketAdd buckets 0 (geNeg pt) else buckets
  if d > 0 then bucketAdd buckets ((d - 1) / 2).toNat pt
  else if d < 0 then bucketAdd buckets (-(d + 1) / 2).toNat (geNeg pt)
  else buckets

/-- `k` times `secp256k1_gej_double_var(r, r, NULL)`, ecmult_impl.h:552-554 -/
def doubleTimes : Nat → Gej α → Gej α
  | 0, r => r
  | k + 1, r => doubleTimes k (gejDoubleVar r).1

/-- The loop at ecmult_impl.h:565-568 with `j` from its argument down to 1: `running_sum` and `r`. -/
def pippSumLoop (buckets : List (Gej α)) : Nat → Gej α → Gej α → Gej α × Gej α
  | 0, sum, r => (sum, r)
  | j + 1, sum, r =>
    let sum := (gejAddVar sum (buckets.getD (j + 1) gejGarbage)).1
    pippSumLoop buckets j sum (gejAddVar r sum).1

/-- One round of the main loop of `secp256k1_ecmult_pippenger_wnaf`, ecmult_impl.h:521-573. -/
def pippRound (pts : List (Fn × Ge α)) (ps : List PippPoint) (bw i : Nat) (r : Gej α) : Gej α :=
  let size := ecmultTableSize (bw + 2)
  let buckets := ps.foldl (pippBucket pts i) (List.replicate size gejInfinity)
  let r := doubleTimes bw r
  let l := pippSumLoop buckets (size - 1) gejInfinity r
  let sum := (gejAddVar l.1 (buckets.getD 0 gejGarbage)).1
  let r := (gejDoubleVar l.2).1
  (gejAddVar r sum).1

/-- The main loop, rounds `i-1, …, 0`. -/
def pippLoop (pts : List (Fn × Ge α)) (ps : List PippPoint) (bw : Nat) : Nat → Gej α → Gej α
  | 0, r => r
  | i + 1, r => pippLoop pts ps bw i (pippRound pts ps bw i r)

/-- `secp256k1_ecmult_pippenger_wnaf`, ecmult_impl.h:500-575; `pts` are the pairs `(sc[i], pt[i])`. -/
def pippengerWnaf (bw : Nat) (pts : List (Fn × Ge α)) : Gej α :=
  let nWnaf := wnafSize (bw + 1)
  let ps := pippPrep (bw + 1) 0 pts
  if ps.length = 0 then gejInfinity else pippLoop pts ps bw nWnaf gejInfinity

/-- `secp256k1_pippenger_bucket_window`, ecmult_impl.h:581-605 -/
def pippBucketWindow (n : Nat) : Nat :=
  if n ≤ 1 then 1
  else if n ≤ 4 then 2
  else if n ≤ 20 then 3
  else if n ≤ 57 then 4
  else if n ≤ 136 then 5
  else if n ≤ 235 then 6
  else if n ≤ 1260 then 7
  else if n ≤ 4420 then 9
  else if n ≤ 7880 then 10
  else if n ≤ 16050 then 11
  else 12

/-- `secp256k1_pippenger_bucket_window_inv`, ecmult_impl.h:610-626 -/
def pippBucketWindowInv [Target] : Nat → Nat
  | 1 => 1
  | 2 => 4
  | 3 => 20
  | 4 => 57
  | 5 => 136
  | 6 => 235
  | 7 => 1260
  | 8 => 1260
  | 9 => 4420
  | 10 => 7880
  | 11 => 16050
  | 12 => szMod - 1
  | _ => 0

/-- `secp256k1_ecmult_endo_split`, ecmult_impl.h:629-642: `(s1, p1)` and `(s2, p2)`. -/
def endoSplit (s1 : Fn) (p1 : Ge α) : (Fn × Ge α) × (Fn × Ge α) :=
  let t := scSplitLambda s1
  let p2 := geMulLambda p1
  let q1 := if scIsHigh t.1 then (-t.1, geNeg p1) else (t.1, p1)
  let q2 := if scIsHigh t.2 then (-t.2, geNeg p2) else (t.2, p2)
  (q1, q2)

variable [T : Target]

/-- `sizeof(secp256k1_ge)`, group.h:16-20: two field elements and an `int`, padded to a multiple of 8 if
the limbs have 64 bits -/
def sizeofGe : Nat := if T.field26 then 84 else 88
/-- `sizeof(secp256k1_gej)`, group.h:28-33: three field elements and an `int` -/
def sizeofGej : Nat := if T.field26 then 124 else 128
/-- `sizeof(secp256k1_fe)`: ten words of 32 bits or five of 64 bits -/
def sizeofFe : Nat := 40
/-- `sizeof(secp256k1_scalar)`: eight words of 32 bits or four of 64 bits -/
def sizeofScalar : Nat := 32
/-- `sizeof(struct secp256k1_strauss_point_state)`, ecmult_impl.h:223-228: 260 times `int` -/
def sizeofStraussPoint : Nat := 1040
/-- `sizeof(struct secp256k1_pippenger_point_state)`, ecmult_impl.h:483-486: an `int` and a `size_t` -/
def sizeofPippPoint : Nat := if T.word32 then 8 else 16
/-- `sizeof(struct secp256k1_pippenger_state)`, ecmult_impl.h:488-491: two pointers -/
def sizeofPippState : Nat := if T.word32 then 8 else 16
/-- `sizeof(int)` -/
def sizeofInt : Nat := 4

/-- A sequence of `secp256k1_scratch_alloc` calls: whether none returned NULL, the scratch space and the
number of error callbacks. -/
def scratchAllocs (al : Nat) : List Nat → Scratch → Bool × Scratch × Nat
  | [], s => (true, s, 0)
  | size :: rest, s =>
    let a := scratchAlloc al s (size % szMod)
    let b := scratchAllocs al rest a.2.1
    (a.1.isSome && b.1, b.2.1, a.2.2 + b.2.2)

/-- What a batch function leaves behind: the result (`none` for a return value 0), the scratch space and
the number of error callbacks. -/
structure BatchOut (α : Type) where
  res : Option (Gej α)
  scratch : Scratch
  errors : Nat

/-- The loop of `secp256k1_ecmult_strauss_batch` over the points, ecmult_impl.h:392-399: `k` points to go,
the next one is `idx`. -/
def straussFill (cb : MultiCallbackOf α) : Nat → Nat → Option (List (Gej α × Fn))
  | 0, _ => some []
  | k + 1, idx =>
    match cb idx with
    | none => none
    | some (scalar, point) =>
      match straussFill cb k (idx + 1) with
      | none => none
      | some l => some ((gejSetGe point, scalar) :: l)

/-- `secp256k1_ecmult_strauss_batch`, ecmult_impl.h:366-403 -/
def straussBatch (al : Nat) (scratch : Scratch) (inpGSc : Option Fn) (cb : MultiCallbackOf α)
    (nPoints cbOffset : Nat) : BatchOut α :=
  let c := scratchCheckpoint scratch
  if inpGSc = none ∧ nPoints = 0 then ⟨some gejInfinity, scratch, c.2⟩
  else
    let t := ecmultTableSize windowA
    let a := scratchAllocs al [nPoints * sizeofGej, nPoints * sizeofScalar, nPoints * t * sizeofFe,
      nPoints * t * sizeofGe, nPoints * sizeofStraussPoint] scratch
    let b := scratchApply a.2.1 c.1
    let errors := c.2 + a.2.2 + b.2
    if !a.1 then ⟨none, b.1, errors⟩
    else
      match straussFill cb nPoints cbOffset with
      | none => ⟨none, b.1, errors⟩
      | some pts => ⟨some (strauss pts inpGSc), b.1, errors⟩

/-- `secp256k1_strauss_scratch_size`, ecmult_impl.h:361-364 -/
def straussScratchSize (nPoints : Nat) : Nat :=
  let pointSize := (sizeofGe + sizeofFe) * ecmultTableSize windowA + sizeofStraussPoint + sizeofGej +
    sizeofScalar
  nPoints * pointSize % szMod

/-- `secp256k1_strauss_max_points`, ecmult_impl.h:410-412: the result and the error callbacks. -/
def straussMaxPoints (al : Nat) (s : Scratch) : Nat × Nat :=
  let a := scratchMaxAllocation al s 5
  (a.1 / straussScratchSize 1, a.2)

/-- The loop of `secp256k1_ecmult_pippenger_batch` over the points, ecmult_impl.h:701-710: `k` points to
go, the next one is `idx`. -/
def pippFill (cb : MultiCallbackOf α) : Nat → Nat → Option (List (Fn × Ge α))
  | 0, _ => some []
  | k + 1, idx =>
    match cb idx with
    | none => none
    | some (scalar, point) =>
      match pippFill cb k (idx + 1) with
      | none => none
      | some l =>
        let q := endoSplit scalar point
        some (q.1 :: q.2 :: l)

/-- The entries for the generator, ecmult_impl.h:693-699. -/
def pippFillG : Option Fn → List (Fn × Ge α)
  | none => []
  | some g =>
    let q := endoSplit g geConstG
    [q.1, q.2]

/-- `secp256k1_ecmult_pippenger_batch`, ecmult_impl.h:654-715.  The model makes the last three allocations
also when one of the first three fails; in both cases the checkpoint is restored and 0 returned. -/
def pippengerBatch (al : Nat) (scratch : Scratch) (inpGSc : Option Fn) (cb : MultiCallbackOf α)
    (nPoints cbOffset : Nat) : BatchOut α :=
  let c := scratchCheckpoint scratch
  let entries := 2 * nPoints + 2
  if inpGSc = none ∧ nPoints = 0 then ⟨some gejInfinity, scratch, c.2⟩
  else
    let bw := pippBucketWindow nPoints
    let a := scratchAllocs al [entries * sizeofGe, entries * sizeofScalar, sizeofPippState,
      entries * sizeofPippPoint, entries * wnafSize (bw + 1) * sizeofInt, 2 ^ bw * sizeofGej] scratch
    let b := scratchApply a.2.1 c.1
    let errors := c.2 + a.2.2 + b.2
    if !a.1 then ⟨none, b.1, errors⟩
    else
      match pippFill cb nPoints cbOffset with
      | none => ⟨none, b.1, errors⟩
      | some pts => ⟨some (pippengerWnaf bw (pippFillG inpGSc ++ pts)), b.1, errors⟩

/-- The loop of `secp256k1_pippenger_max_points`, ecmult_impl.h:732-757: `k` values of `bucket_window` to
go, the next one is `bw`. -/
def pippMaxLoop (maxAlloc : Nat) : Nat → Nat → Nat → Nat
  | 0, _, res => res
  | k + 1, bw, res =>
    let maxPoints := pippBucketWindowInv bw
    let entrySize := 2 * (sizeofGe + sizeofScalar + sizeofPippPoint + (wnafSize (bw + 1) + 1) * sizeofInt)
    let spaceOverhead := sizeofGej * 2 ^ bw + entrySize + sizeofPippState
    if spaceOverhead > maxAlloc then res
    else
      let spaceForPoints := maxAlloc - spaceOverhead
      let nPoints := spaceForPoints / entrySize
      let nPoints := if nPoints > maxPoints then maxPoints else nPoints
      let res := if nPoints > res then nPoints else res
      if nPoints < maxPoints then res else pippMaxLoop maxAlloc k (bw + 1) res

/-- `secp256k1_pippenger_max_points`, ecmult_impl.h:727-759: the result and the error callbacks. -/
def pippMaxPoints (al : Nat) (s : Scratch) : Nat × Nat :=
  let a := scratchMaxAllocation al s 6
  (pippMaxLoop a.1 12 1 0, a.2)

/-- `secp256k1_ecmult_multi_batch_size_helper`, ecmult_impl.h:788-804: `n_batches` and
`n_batch_points`; `none` for a return value 0. -/
def batchSizeHelper (maxPoints n : Nat) : Option (Nat × Nat) :=
  if maxPoints = 0 then none
  else
    let maxPoints := if maxPoints > 5000000 then 5000000 else maxPoints
    if n = 0 then some (0, 0)
    else
      let nBatches := szCeilDiv n maxPoints
      some (nBatches, szCeilDiv n nBatches)

/-- The loop over the batches, ecmult_impl.h:840-849: `k` batches to go, the next one is number `i`, `n`
points are left. -/
def batchLoop (f : Scratch → Option Fn → Nat → Nat → BatchOut α) (inpGSc : Option Fn) (nBatchPoints : Nat) :
    Nat → Nat → Nat → Scratch → Nat → Gej α → BatchOut α
  | 0, _, _, scratch, errors, r => ⟨some r, scratch, errors⟩
  | k + 1, i, n, scratch, errors, r =>
    let nbp := if n < nBatchPoints then n else nBatchPoints
    let offset := nBatchPoints * i % szMod
    let o := f scratch (if i = 0 then inpGSc else none) nbp offset
    match o.res with
    | none => ⟨none, o.scratch, errors + o.errors⟩
    | some tmp =>
      batchLoop f inpGSc nBatchPoints k (i + 1) (n - nbp) o.scratch (errors + o.errors)
        (gejAddVar r tmp).1

/-- `secp256k1_ecmult_multi_var` with a scratch space, ecmult_impl.h:807-851 -/
def ecmultMultiVar (al : Nat) (scratch : Scratch) (inpGSc : Option Fn) (cb : MultiCallbackOf α) (n : Nat) :
    BatchOut α :=
  if inpGSc = none ∧ n = 0 then ⟨some gejInfinity, scratch, 0⟩
  else if n = 0 then ⟨some (ecmult gejInfinity 0 inpGSc), scratch, 0⟩
  else
    let m := pippMaxPoints al scratch
    match batchSizeHelper m.1 n with
    | none => ⟨ecmultMultiSimpleVar inpGSc cb n, scratch, m.2⟩
    | some (nBatches, nBatchPoints) =>
      if nBatchPoints ≥ 88 then
        batchLoop (fun s g => pippengerBatch al s g cb) inpGSc nBatchPoints nBatches 0 n scratch m.2
          gejInfinity
      else
        let m' := straussMaxPoints al scratch
        match batchSizeHelper m'.1 n with
        | none => ⟨ecmultMultiSimpleVar inpGSc cb n, scratch, m.2 + m'.2⟩
        | some (nBatches, nBatchPoints) =>
          batchLoop (fun s g => straussBatch al s g cb) inpGSc nBatchPoints nBatches 0 n scratch
            (m.2 + m'.2) gejInfinity

end Secp.Model
