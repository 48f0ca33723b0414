import Verif.Model.Group
import Verif.Model.Scalar
import Verif.Model.PreG

/-!
# Model of the variable-time multiplication (`/repo/src/ecmult_impl.h`)

Polymorphic in the field (`FeOps α`); scalars by value.  Arrays are lists; an index outside an array reads `(0, 0)`, which
is not a point of any curve involved, so no correctness theorem could hold if the code ever did
that.  `int` arithmetic is exact: all values are below `2^16`.
-/

namespace Secp.Model

open FeOps

/-- `secp256k1_const_beta`, field.h:69-72 -/
def constBeta : Nat := 0x7ae96a2b657c07106e64479eac3434e99cf0497512f58995c1396c28719501ee

/-- `WINDOW_A`, ecmult_impl.h:32 -/
def windowA : Nat := 5
/-- `WINDOW_G` = `ECMULT_WINDOW_SIZE`, ecmult.h:15 -/
def windowG : Nat := 15
/-- `ECMULT_TABLE_SIZE(w)`, ecmult.h:41 -/
def ecmultTableSize (w : Nat) : Nat := 2 ^ (w - 2)

variable {α : Type} [FeOps α]

/-- What an out-of-bounds read yields in the model. -/
def geGarbage : Ge α := ⟨setInt 0, setInt 0, false⟩

/-- The loop at ecmult_impl.h:105-108.  The parallel arrays `pre_a` and `zr` are one list of
pairs.  `rzr` is always written here; were it not, the model stores 0. -/
def oddMultiplesLoop (d : Ge α) : Nat → Gej α → List (Ge α × α) × Gej α
  | 0, ai => ([], ai)
  | k + 1, ai =>
    let s := gejAddGeVar ai d
    let rest := oddMultiplesLoop d k s.1
    ((geSetXY s.1.x s.1.y, s.2.getD (setInt 0)) :: rest.1, rest.2)

/-- `secp256k1_ecmult_odd_multiples_table`, ecmult_impl.h:73-115: (`pre_a` zipped with `zr`, `z`). -/
def oddMultiplesTable (cnt : Nat) (a : Gej α) : List (Ge α × α) × α :=
  let d := (gejDoubleVar a).1
  let dGe := geSetXY d.x d.y
  let pre0 := geSetGejZinv a d.z
  let ai := { gejSetGe pre0 with z := a.z }
  let loop := oddMultiplesLoop dGe (cnt - 1) ai
  ((pre0, d.z) :: loop.1, mul loop.2.z d.z)

/-- The `while` loop of `secp256k1_ge_table_set_globalz`, group_impl.h:305-312, on the reversed
list of entries below the last. -/
def globalzLoop : List (Ge α × α) → α → List (Ge α) → List (Ge α)
  | [], _, acc => acc
  | (a, z) :: rest, zs, acc => globalzLoop rest (mul zs z) (geSetGeZinv a zs :: acc)

/-- `secp256k1_ge_table_set_globalz`, group_impl.h:289-320 -/
def tableSetGlobalz (t : List (Ge α × α)) : List (Ge α) :=
  match t.reverse with
  | [] => []
  | (a, z) :: rest => globalzLoop rest z [{ a with y := normalizeWeak a.y }]

/-- `secp256k1_ecmult_table_get_ge`, ecmult_impl.h:125-133 -/
def tableGetGe (pre : List (Ge α)) (k : Int) : Ge α :=
  if k > 0 then pre.getD ((k - 1) / 2).toNat geGarbage
  else
    let r := pre.getD ((-k - 1) / 2).toNat geGarbage
    { r with y := negate r.y 1 }

/-- `secp256k1_ecmult_table_get_ge_lambda`, ecmult_impl.h:135-143 -/
def tableGetGeLambda (pre : List (Ge α)) (x : List α) (k : Int) : Ge α :=
  if k > 0 then
    geSetXY (x.getD ((k - 1) / 2).toNat (setInt 0)) (pre.getD ((k - 1) / 2).toNat geGarbage).y
  else
    let r := geSetXY (x.getD ((-k - 1) / 2).toNat (setInt 0)) (pre.getD ((-k - 1) / 2).toNat geGarbage).y
    { r with y := negate r.y 1 }

/-- `secp256k1_ge_from_storage` on an entry of a precomputed table, group_impl.h:890-896 -/
def geFromStorage (s : Nat × Nat) : Ge α := ⟨ofStorage s.1, ofStorage s.2, false⟩

/-- `secp256k1_ecmult_table_get_ge_storage`, ecmult_impl.h:145-153; `pre` is the static table. -/
def tableGetGeStorage (pre : Nat → Nat × Nat) (k : Int) : Ge α :=
  if k > 0 then geFromStorage (pre ((k - 1) / 2).toNat)
  else
    let r : Ge α := geFromStorage (pre ((-k - 1) / 2).toNat)
    { r with y := negate r.y 1 }

/-- State of the loop of `secp256k1_ecmult_wnaf`. `bits` is `last_set_bit + 1`. -/
structure WnafState where
  wnaf : List Int
  bits : Nat
  bit : Nat
  carry : Nat

/-- The `while` loop of `secp256k1_ecmult_wnaf`, ecmult_impl.h:185-208; `s` is the scalar after the
conditional negation. -/
def wnafLoop (s : Fn) (sign : Int) (len w : Nat) (st : WnafState) : WnafState :=
  if h : st.bit < len then
    if scGetBits s st.bit 1 = st.carry then
      wnafLoop s sign len w { st with bit := st.bit + 1 }
    else
      let now := min w (len - st.bit)
      let word := scGetBits s st.bit now + st.carry
      let carry := word / 2 ^ (w - 1) % 2
      let word : Int := word - carry * 2 ^ w
      if hnow : now = 0 then st   -- not reached: `w > 0` and `st.bit < len`
      else wnafLoop s sign len w
        { wnaf := st.wnaf.set st.bit (sign * word), bits := st.bit + 1, bit := st.bit + now,
          carry := carry }
  else st
termination_by len - st.bit
decreasing_by
  · omega
  · omega

/-- `secp256k1_ecmult_wnaf`, ecmult_impl.h:162-221: (`wnaf`, return value). -/
def ecmultWnaf (len : Nat) (a : Fn) (w : Nat) : List Int × Nat :=
  let neg := scGetBits a 255 1 ≠ 0
  let s := if neg then -a else a
  let sign : Int := if neg then -1 else 1
  let st := wnafLoop s sign len w { wnaf := List.replicate len 0, bits := 0, bit := 0, carry := 0 }
  (st.wnaf, st.bits)

/-- `struct secp256k1_strauss_point_state`, ecmult_impl.h:223-228 -/
structure StraussPoint where
  wnafNa1 : List Int
  wnafNaLam : List Int
  bitsNa1 : Nat
  bitsNaLam : Nat

/-- Local variables of `secp256k1_ecmult_strauss_wnaf` during the first loop.  `table` is the used
part of `state->pre_a` zipped with `state->aux`; `no` is the length of `ps`. -/
structure StraussState (α : Type) where
  Z : α
  table : List (Ge α × α)
  ps : List StraussPoint
  bits : Nat

/-- Body of the first loop of `secp256k1_ecmult_strauss_wnaf`, ecmult_impl.h:252-291. -/
def straussPrep (st : StraussState α) (ana : Gej α × Fn) : StraussState α :=
  let a := ana.1
  let na := ana.2
  if scIsZero na || a.infinity then st
  else
    let no := st.ps.length
    let sp := scSplitLambda na
    let w1 := ecmultWnaf 129 sp.1 windowA
    let wl := ecmultWnaf 129 sp.2 windowA
    let bits := if w1.2 > st.bits then w1.2 else st.bits
    let bits := if wl.2 > bits then wl.2 else bits
    let tmp := a
    let tmp := if no ≠ 0 then gejRescale tmp st.Z else tmp
    let t := oddMultiplesTable (ecmultTableSize windowA) tmp
    let tab := match t.1 with
      | [] => []
      | (g, r) :: rest => (g, if no ≠ 0 then mul r a.z else r) :: rest
    { Z := t.2, table := st.table ++ tab,
      ps := st.ps ++ [{ wnafNa1 := w1.1, wnafNaLam := wl.1, bitsNa1 := w1.2, bitsNaLam := wl.2 }],
      bits := bits }

/-- The two additions for the point number `np`, ecmult_impl.h:325-332. -/
def straussAddPoint (pre : List (Ge α)) (aux : List α) (i : Nat) (r : Gej α)
    (np : Nat) (ps : StraussPoint) : Gej α :=
  let off := np * ecmultTableSize windowA
  let r :=
    let k := ps.wnafNa1.getD i 0
    if i < ps.bitsNa1 ∧ k ≠ 0 then (gejAddGeVar r (tableGetGe (pre.drop off) k)).1 else r
  let k := ps.wnafNaLam.getD i 0
  if i < ps.bitsNaLam ∧ k ≠ 0 then
    (gejAddGeVar r (tableGetGeLambda (pre.drop off) (aux.drop off) k)).1
  else r

/-- The loop over the points, ecmult_impl.h:322-332, from point number `np` on. -/
def straussAddPoints (pre : List (Ge α)) (aux : List α) (i : Nat) :
    Nat → List StraussPoint → Gej α → Gej α
  | _, [], r => r
  | np, ps :: rest, r =>
    straussAddPoints pre aux i (np + 1) rest (straussAddPoint pre aux i r np ps)

/-- One addition of a multiple of a fixed point, ecmult_impl.h:334-341. -/
def straussAddG (tab : Nat → Nat × Nat) (Z : α) (w : List Int × Nat) (i : Nat) (r : Gej α) :
    Gej α :=
  let k := w.1.getD i 0
  if i < w.2 ∧ k ≠ 0 then gejAddZinvVar r (tableGetGeStorage tab k) Z else r

/-- The choice made by `ECMULT_WINDOW_SIZE`: the window and the two static tables for it,
ecmult.h:14-39, precomputed_ecmult.h:31-33. -/
structure GTab where
  window : Nat
  g : Nat → Nat × Nat
  g128 : Nat → Nat × Nat

/-- The default window of 15 bits with the tables of precomputed_ecmult.c. -/
def shippedTab : GTab := ⟨windowG, preG, preG128⟩

/-- The main loop of `secp256k1_ecmult_strauss_wnaf`, ecmult_impl.h:319-342: iterations
`i-1, …, 0`. -/
def straussLoop (t : GTab) (pre : List (Ge α)) (aux : List α) (ps : List StraussPoint) (Z : α)
    (wg1 wg128 : List Int × Nat) : Nat → Gej α → Gej α
  | 0, r => r
  | i + 1, r =>
    let r := (gejDoubleVar r).1
    let r := straussAddPoints pre aux i 0 ps r
    let r := straussAddG t.g Z wg1 i r
    let r := straussAddG t.g128 Z wg128 i r
    straussLoop t pre aux ps Z wg1 wg128 i r

/-- The digits of the two halves of `ng`, ecmult_impl.h:304-317; without `ng` the digit counts keep
their initial value 0. -/
def straussWnafG (window : Nat) : Option Fn → (List Int × Nat) × (List Int × Nat)
  | none => (([], 0), ([], 0))
  | some ng =>
    let s := scSplit128 ng
    (ecmultWnaf 129 s.1 window, ecmultWnaf 129 s.2 window)

/-- `secp256k1_ecmult_strauss_wnaf`, ecmult_impl.h:237-347.  `pts` are the pairs
`(a[np], na[np])`; `ng = none` is the NULL pointer. -/
def straussWith (tab : GTab) (pts : List (Gej α × Fn)) (ng : Option Fn) : Gej α :=
  let st := pts.foldl straussPrep { Z := setInt 1, table := [], ps := [], bits := 0 }
  let pre := tableSetGlobalz st.table
  let aux := pre.map fun g => mul g.x (feConst constBeta)
  let wg1 := (straussWnafG tab.window ng).1
  let wg128 := (straussWnafG tab.window ng).2
  let bits := if wg1.2 > st.bits then wg1.2 else st.bits
  let bits := if wg128.2 > bits then wg128.2 else bits
  let r := straussLoop tab pre aux st.ps st.Z wg1 wg128 bits gejInfinity
  if !r.infinity then { r with z := mul r.z st.Z } else r

/-- `secp256k1_ecmult_strauss_wnaf` in the default configuration. -/
def strauss (pts : List (Gej α × Fn)) (ng : Option Fn) : Gej α := straussWith shippedTab pts ng

/-- `secp256k1_ecmult` for any window, ecmult_impl.h:349-359 -/
def ecmultWith (tab : GTab) (a : Gej α) (na : Fn) (ng : Option Fn) : Gej α :=
  straussWith tab [(a, na)] ng

/-- `secp256k1_ecmult`, ecmult_impl.h:349-359 -/
def ecmult (a : Gej α) (na : Fn) (ng : Option Fn) : Gej α := strauss [(a, na)] ng

end Secp.Model
