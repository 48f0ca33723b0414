import Verif.Model.EcmultGen
import Verif.Model.GroupAll

/-!
# Model of the programs that compute the static tables

`/repo/src/ecmult_compute_table_impl.h`, `/repo/src/ecmult_gen_compute_table_impl.h` and the loops of
`/repo/src/precompute_ecmult.c`, `/repo/src/precompute_ecmult_gen.c` that print their results.  Field
elements are values; the arrays are lists, so that `vs_pos` is the length of `vs`.  The printed text
itself is not modelled: a table is the list of its entries.
-/

namespace Secp.Model

open FeOps

/-- `secp256k1_ge_to_storage`, group_impl.h:877-887 -/
def geToStorage (a : Ge Fp) : Nat × Nat := (a.x.val, a.y.val)

/-- The loop at ecmult_compute_table_impl.h:28-33, `k` entries left. -/
def computeTableLoop (dgen : Ge Fp) : Nat → Ge Fp → List (Nat × Nat)
  | 0, _ => []
  | k + 1, ge =>
    let gj := gejSetGe ge
    let gj := (gejAddGeVar gj dgen).1
    let ge := geSetGejVar gj
    geToStorage ge :: computeTableLoop dgen k ge

/-- `secp256k1_ecmult_compute_table`, ecmult_compute_table_impl.h:16-34 -/
def ecmultComputeTable (windowG : Nat) (gen : Gej Fp) : List (Nat × Nat) :=
  let ge := geSetGejVar gen
  let dgen := geSetGejVar (gejDoubleVar gen).1
  geToStorage ge :: computeTableLoop dgen (ecmultTableSize windowG - 1) ge

/-- `secp256k1_ecmult_compute_two_tables`, ecmult_compute_table_impl.h:36-47 -/
def ecmultComputeTwoTables (windowG : Nat) (gen : Ge Fp) : List (Nat × Nat) × List (Nat × Nat) :=
  let gj := gejSetGe gen
  let table := ecmultComputeTable windowG gj
  let gj := (List.range 128).foldl (fun gj _ => (gejDoubleVar gj).1) gj
  (table, ecmultComputeTable windowG gj)

/-- The static tables of a build with `ECMULT_WINDOW_SIZE = w`: precompute_ecmult.c:57-59 (tables for
window sizes up to 15 are always computed) and `print_two_tables`, precompute_ecmult.c:44-55. The
printed C text is not modelled: an entry of the array is the entry that was computed. -/
def windowTab (w : Nat) : GTab :=
  let t := ecmultComputeTwoTables (if w < 15 then 15 else w) geConstG
  ⟨w, fun i => t.1.getD i (0, 0), fun i => t.2.getD i (0, 0)⟩

/-- The ladder that halves the generator, ecmult_gen_compute_table_impl.h:30-39. -/
def genTableHalf (gen : Ge Fp) : Gej Fp :=
  (List.range 256).reverse.foldl
    (fun u i =>
      let u := (gejDoubleVar u).1
      if scGetBits (scHalf 1) i 1 ≠ 0 then (gejAddGeVar u gen).1 else u) gejInfinity

/-- The local variables of `secp256k1_ecmult_gen_compute_table` inside a block. -/
structure ToothState where
  u : Gej Fp
  sum : Gej Fp
  ds : List (Gej Fp)

/-- Body of the loop over teeth, ecmult_gen_compute_table_impl.h:54-69. -/
def genTableTooth (blocks teeth spacing block : Nat) (st : ToothState) (tooth : Nat) : ToothState :=
  let sum := (gejAddVar st.sum st.u).1
  let u := (gejDoubleVar st.u).1
  let ds := st.ds ++ [u]
  let u := if block + tooth ≠ blocks + teeth - 2 then
      (List.range (spacing - 1)).foldl (fun u _ => (gejDoubleVar u).1) u
    else u
  ⟨u, sum, ds⟩

/-- The loop that doubles the number of entries of a block, ecmult_gen_compute_table_impl.h:81-87. -/
def genTableDouble (ds vs : List (Gej Fp)) (tooth : Nat) : List (Gej Fp) :=
  let stride := 1 <<< tooth
  (List.range stride).foldl
    (fun vs _ => vs ++ [(gejAddVar (vs.getD (vs.length - stride) gejInfinity)
      (ds.getD tooth gejInfinity)).1]) vs

/-- Body of the loop over blocks, ecmult_gen_compute_table_impl.h:49-88, on `u` and `vs`. -/
def genTableBlock (blocks teeth spacing : Nat) (st : Gej Fp × List (Gej Fp)) (block : Nat) :
    Gej Fp × List (Gej Fp) :=
  let t := (List.range teeth).foldl (genTableTooth blocks teeth spacing block) ⟨st.1, gejInfinity, []⟩
  let vs := st.2 ++ [gejNeg t.sum]
  (t.u, (List.range (teeth - 1)).foldl (genTableDouble t.ds) vs)

/-- `secp256k1_ecmult_gen_compute_table` from the halved generator on,
ecmult_gen_compute_table_impl.h:49-100. -/
def genTableFrom (u : Gej Fp) (blocks teeth spacing : Nat) : List (Nat × Nat) :=
  let st := (List.range blocks).foldl (genTableBlock blocks teeth spacing) (u, [])
  (geSetAllGejVar st.2).map geToStorage

/-- `secp256k1_ecmult_gen_compute_table`, ecmult_gen_compute_table_impl.h:17-106; the result is the
whole array `table`.  The allocations do not fail (`checked_malloc` aborts otherwise). -/
def ecmultGenComputeTable (gen : Ge Fp) (blocks teeth spacing : Nat) : List (Nat × Nat) :=
  genTableFrom (genTableHalf gen) blocks teeth spacing

/-- The printing loops of `print_table`, precompute_ecmult_gen.c:38-55: the rows
`table[outer*points + inner]`. -/
def tableRows (table : List (Nat × Nat)) (blocks points : Nat) : List (List (Nat × Nat)) :=
  (List.range blocks).map fun outer =>
    (List.range points).map fun inner => table.getD (outer * points + inner) (0, 0)

/-- `print_table`, precompute_ecmult_gen.c:27-56 -/
def genTableRows (blocks teeth : Nat) : List (List (Nat × Nat)) :=
  let spacing := 1 + (256 - 1) / (blocks * teeth)
  let points := 1 <<< (teeth - 1)
  tableRows (ecmultGenComputeTable geConstG blocks teeth spacing) blocks points

/-- A build for which the table was computed by `precompute_ecmult_gen` with
`COMB_BLOCKS = blocks`, `COMB_TEETH = teeth`, precompute_ecmult_gen.c:83-91. -/
def combOf (blocks teeth : Nat) : CombCfg := ⟨blocks, teeth, genTableRows blocks teeth⟩

/-- The checks of the parameters at compile time, ecmult_gen.h:91-109. -/
def CombCfg.Accepted (c : CombCfg) : Prop :=
  (1 ≤ c.blocks ∧ c.blocks ≤ 256) ∧ (1 ≤ c.teeth ∧ c.teeth ≤ 8) ∧ 256 ≤ c.bits ∧
    (c.blocks - 1) * c.teeth * c.spacing < 256 ∧ c.blocks * (c.teeth - 1) * c.spacing < 256

/-- The comb configurations of a build: one of the three tables shipped with the library, or parameters
accepted by ecmult_gen.h with the table computed for them. -/
def CombCfg.Build (c : CombCfg) : Prop :=
  c = comb2 ∨ c = comb22 ∨ c = comb86 ∨ c.Accepted ∧ c = combOf c.blocks c.teeth

end Secp.Model
