import Verif.Model.Verify
import Verif.Model.Objects
import Verif.Model.EcmultConst
import Verif.Model.EcmultGen

/-!
# The multiplication code of a build with `VERIFY`

`/repo/src/ecmult_impl.h`, `ecmult_const_impl.h`, `ecmult_gen_impl.h` and `secp256k1_scalar_split_lambda_verify`
once more, statement by statement, with their checks; `none` is an aborted program.  The functions without
checks are those of `Model/Ecmult.lean`, `Model/EcmultConst.lean` and `Model/EcmultGen.lean`.  A read outside of
one of the tables built during a multiplication is `none` as well.

Left out: checks on pointers (`wnaf != NULL`), `SECP256K1_SCALAR_VERIFY` (scalars are values here, hence reduced)
and the checks of the scalar functions other than `secp256k1_scalar_get_bits_var` and
`secp256k1_scalar_split_lambda_verify`.
-/

namespace Secp.Model.Verify

open FeOps

/-! ## scalars -/

/-- `k1_bound`, scalar_impl.h:292-295 -/
def k1Bound : List UInt8 :=
  [0x00, 0x00, 0x00, 0x00, 0x00, 0x00, 0x00, 0x00, 0x00, 0x00, 0x00, 0x00, 0x00, 0x00, 0x00, 0x00,
   0xa2, 0xa8, 0x91, 0x8c, 0xa8, 0x5b, 0xaf, 0xe2, 0x20, 0x16, 0xd0, 0xb9, 0x17, 0xe4, 0xdd, 0x77]

/-- `k2_bound`, scalar_impl.h:298-301 -/
def k2Bound : List UInt8 :=
  [0x00, 0x00, 0x00, 0x00, 0x00, 0x00, 0x00, 0x00, 0x00, 0x00, 0x00, 0x00, 0x00, 0x00, 0x00, 0x00,
   0x8a, 0x65, 0x28, 0x7b, 0xd4, 0x71, 0x79, 0xfb, 0x2b, 0xe0, 0x88, 0x46, 0xce, 0xa2, 0x67, 0xed]

/-- The two comparisons with a bound, scalar_impl.h:307-310 and 312-315 -/
def withinBound (r : Fn) (bound : List UInt8) : Bool :=
  decide (memcmpVar (scGetB32 r) bound 32 < 0) || decide (memcmpVar (scGetB32 (-r)) bound 32 < 0)

/-- `secp256k1_scalar_split_lambda_verify`, scalar_impl.h:286-316 -/
def splitLambdaVerify (r1 r2 k : Fn) : Option Unit := do
  let s := scConst constLambda * r2
  let s := s + r1
  check (decide (s = k))
  check (withinBound r1 k1Bound)
  check (withinBound r2 k2Bound)

/-- `secp256k1_scalar_split_lambda`, scalar_impl.h:142-180, with its last check -/
def splitLambdaV (k : Fn) : Option (Fn × Fn) := do
  splitLambdaVerify (scSplitLambda k).1 (scSplitLambda k).2 k
  some (scSplitLambda k)

/-- `secp256k1_scalar_get_bits_var`, scalar_4x64_impl.h:49-60, scalar_8x32_impl.h:65-76 -/
def getBitsVarV (a : Fn) (offset count : ℕ) : Option ℕ := do
  check (decide (0 < count) && decide (count ≤ 32))
  check (decide (offset + count ≤ 256))
  some (scGetBits a offset count)

/-- The `while` loop of `secp256k1_ecmult_wnaf`, ecmult_impl.h:185-208 -/
def wnafLoopV (s : Fn) (sign : Int) (len w : ℕ) (st : WnafState) : Option WnafState :=
  if h : st.bit < len then
    if scGetBits s st.bit 1 = st.carry then
      wnafLoopV s sign len w { st with bit := st.bit + 1 }
    else
      let now := min w (len - st.bit)
      (getBitsVarV s st.bit now).bind fun b =>
        let word := b + st.carry
        let carry := word / 2 ^ (w - 1) % 2
        let word : Int := word - carry * 2 ^ w
        if hnow : now = 0 then some st   -- not reached: the check above fails
        else wnafLoopV s sign len w
          { wnaf := st.wnaf.set st.bit (sign * word), bits := st.bit + 1, bit := st.bit + now,
            carry := carry }
  else some st
termination_by len - st.bit
decreasing_by
  · omega
  · omega

/-- `secp256k1_ecmult_wnaf`, ecmult_impl.h:162-221 -/
def wnafV (len : ℕ) (a : Fn) (w : ℕ) : Option (List Int × ℕ) := do
  check (decide (len ≤ 256))
  check (decide (2 ≤ w) && decide (w ≤ 31))
  let neg := scGetBits a 255 1 ≠ 0
  let s := if neg then -a else a
  let sign : Int := if neg then -1 else 1
  let st ← wnafLoopV s sign len w { wnaf := List.replicate len 0, bits := 0, bit := 0, carry := 0 }
  check (st.carry == 0)
  check ((List.range (256 - st.bit)).all fun i => scGetBits s (st.bit + i) 1 == 0)
  some (st.wnaf, st.bits)

variable {α : Type} [FeOps α] [FeCheck α]

/-! ## tables of odd multiples -/

/-- The loop at ecmult_impl.h:105-108 -/
def oddMultiplesLoopV (d : Ge (FeV α)) :
    ℕ → Gej (FeV α) → Option (List (Ge (FeV α) × FeV α) × Gej (FeV α))
  | 0, ai => some ([], ai)
  | k + 1, ai => do
    let s ← gejAddGeVarV ai d true
    let z ← s.2
    let g ← geSetXYV s.1.x s.1.y
    let rest ← oddMultiplesLoopV d k s.1
    some ((g, z) :: rest.1, rest.2)

/-- `secp256k1_ecmult_odd_multiples_table`, ecmult_impl.h:73-115 -/
def oddMultiplesTableV (cnt : ℕ) (a : Gej (FeV α)) : Option (List (Ge (FeV α) × FeV α) × FeV α) := do
  check (!a.infinity)
  let d ← gejDoubleVarV a false
  let dGe ← geSetXYV d.1.x d.1.y
  let pre0 ← geSetGejZinvV a d.1.z
  let ai ← gejSetGeV pre0
  let loop ← oddMultiplesLoopV dGe (cnt - 1) { ai with z := a.z }
  let z ← feMul loop.2.z d.1.z
  some ((pre0, d.1.z) :: loop.1, z)

/-- The product at group_impl.h:307, computed when there is another entry below -/
def globalzNextV (zs z : FeV α) : List (Ge (FeV α) × FeV α) → Option (FeV α)
  | [] => some zs
  | _ :: _ => feMul zs z

/-- The `while` loop of `secp256k1_ge_table_set_globalz`, group_impl.h:305-312 -/
def globalzLoopV : List (Ge (FeV α) × FeV α) → FeV α → List (Ge (FeV α)) → Option (List (Ge (FeV α)))
  | [], _, acc => some acc
  | e :: rest, zs, acc => do
    let g ← geSetGeZinvV e.1 zs
    let zs' ← globalzNextV zs e.2 rest
    globalzLoopV rest zs' (g :: acc)

/-- The body of `secp256k1_ge_table_set_globalz`, group_impl.h:299-313, on the reversed table -/
def globalzStartV : List (Ge (FeV α) × FeV α) → Option (List (Ge (FeV α)))
  | [] => some []
  | e :: rest => do
    let y ← feNormalizeWeak e.1.y
    globalzLoopV rest e.2 [{ e.1 with y := y }]

/-- `secp256k1_ge_table_set_globalz`, group_impl.h:289-320 -/
def tableSetGlobalzV (t : List (Ge (FeV α) × FeV α)) : Option (List (Ge (FeV α))) := do
  check (t.all fun e => geVerify e.1 && e.2.verify)
  let r ← globalzStartV t.reverse
  check (r.all geVerify)
  some r

/-- `secp256k1_ecmult_table_verify`, ecmult_impl.h:117-123 -/
def tableVerify (n : Int) (w : ℕ) : Option Unit := do
  check (n % 2 == 1)
  check (decide (-(2 ^ (w - 1) - 1) ≤ n))
  check (decide (n ≤ 2 ^ (w - 1) - 1))

/-- The negation at ecmult_impl.h:131, 141 and 151 -/
def negY (r : Ge (FeV α)) : Option (Ge (FeV α)) := do
  let y ← feNegate r.y 1
  some { r with y := y }

/-- `secp256k1_ecmult_table_get_ge`, ecmult_impl.h:125-133 -/
def tableGetGeV (pre : List (Ge (FeV α))) (k : Int) (w : ℕ) : Option (Ge (FeV α)) := do
  tableVerify k w
  if k > 0 then pre[((k - 1) / 2).toNat]?
  else do
    let r ← pre[((-k - 1) / 2).toNat]?
    negY r

/-- `secp256k1_ecmult_table_get_ge_lambda`, ecmult_impl.h:135-143 -/
def tableGetGeLambdaV (pre : List (Ge (FeV α))) (x : List (FeV α)) (k : Int) (w : ℕ) : Option (Ge (FeV α)) := do
  tableVerify k w
  if k > 0 then do
    let xx ← x[((k - 1) / 2).toNat]?
    let g ← pre[((k - 1) / 2).toNat]?
    geSetXYV xx g.y
  else do
    let xx ← x[((-k - 1) / 2).toNat]?
    let g ← pre[((-k - 1) / 2).toNat]?
    let r ← geSetXYV xx g.y
    negY r

/-- `secp256k1_ge_from_storage`, group_impl.h:890-896, with `secp256k1_fe_from_storage`, field_impl.h:385-391 -/
def geFromStorageV (s : ℕ × ℕ) : Option (Ge (FeV α)) := do
  let x ← ret ⟨ofStorage s.1, 1, true⟩
  let y ← ret ⟨ofStorage s.2, 1, true⟩
  retGe ⟨x, y, false⟩

/-- `secp256k1_ecmult_table_get_ge_storage`, ecmult_impl.h:145-153 -/
def tableGetGeStorageV (pre : ℕ → ℕ × ℕ) (k : Int) (w : ℕ) : Option (Ge (FeV α)) := do
  tableVerify k w
  if k > 0 then geFromStorageV (pre ((k - 1) / 2).toNat)
  else do
    let r ← geFromStorageV (pre ((-k - 1) / 2).toNat)
    negY r

/-! ## variable time -/

/-- The rescaling at ecmult_impl.h:285-287 -/
def straussRescaleV (no : ℕ) (a : Gej (FeV α)) (Z : FeV α) : Option (Gej (FeV α)) :=
  if no ≠ 0 then gejRescaleV a Z else some a

/-- The product at ecmult_impl.h:289 -/
def straussAuxV (no : ℕ) (z : FeV α) : List (Ge (FeV α) × FeV α) → Option (List (Ge (FeV α) × FeV α))
  | [] => some []
  | e :: rest =>
    if no ≠ 0 then do
      let r ← feMul e.2 z
      some ((e.1, r) :: rest)
    else some (e :: rest)

/-- The first loop of `secp256k1_ecmult_strauss_wnaf` for a point that is not skipped, ecmult_impl.h:258-291 -/
def straussPointV (st : StraussState (FeV α)) (a : Gej (FeV α)) (na : Fn) : Option (StraussState (FeV α)) := do
  let sp ← splitLambdaV na
  let w1 ← wnafV 129 sp.1 windowA
  let wl ← wnafV 129 sp.2 windowA
  check (decide (w1.2 ≤ 129))
  check (decide (wl.2 ≤ 129))
  let bits := if w1.2 > st.bits then w1.2 else st.bits
  let bits := if wl.2 > bits then wl.2 else bits
  let tmp ← straussRescaleV st.ps.length a st.Z
  let t ← oddMultiplesTableV (ecmultTableSize windowA) tmp
  let tab ← straussAuxV st.ps.length a.z t.1
  some { Z := t.2, table := st.table ++ tab,
         ps := st.ps ++ [{ wnafNa1 := w1.1, wnafNaLam := wl.1, bitsNa1 := w1.2, bitsNaLam := wl.2 }],
         bits := bits }

/-- Body of the first loop of `secp256k1_ecmult_strauss_wnaf`, ecmult_impl.h:252-291, with
`secp256k1_gej_is_infinity` (group_impl.h:440-444) -/
def straussPrepV (st : StraussState (FeV α)) (ana : Gej (FeV α) × Fn) : Option (StraussState (FeV α)) :=
  if scIsZero ana.2 then some st
  else do
    check (gejVerify ana.1)
    if ana.1.infinity then some st else straussPointV st ana.1 ana.2

/-- The addition of a multiple of a point, ecmult_impl.h:325-328 -/
def straussAdd1V (pre : List (Ge (FeV α))) (i : ℕ) (r : Gej (FeV α)) (w : List Int × ℕ) :
    Option (Gej (FeV α)) :=
  if i < w.2 ∧ w.1.getD i 0 ≠ 0 then do
    let t ← tableGetGeV pre (w.1.getD i 0) windowA
    let s ← gejAddGeVarV r t false
    some s.1
  else some r

/-- The addition of a multiple of a point times lambda, ecmult_impl.h:329-332 -/
def straussAddLamV (pre : List (Ge (FeV α))) (aux : List (FeV α)) (i : ℕ) (r : Gej (FeV α)) (w : List Int × ℕ) :
    Option (Gej (FeV α)) :=
  if i < w.2 ∧ w.1.getD i 0 ≠ 0 then do
    let t ← tableGetGeLambdaV pre aux (w.1.getD i 0) windowA
    let s ← gejAddGeVarV r t false
    some s.1
  else some r

/-- The loop over the points, ecmult_impl.h:322-332, from point number `np` on -/
def straussAddPointsV (pre : List (Ge (FeV α))) (aux : List (FeV α)) (i : ℕ) :
    ℕ → List StraussPoint → Gej (FeV α) → Option (Gej (FeV α))
  | _, [], r => some r
  | np, ps :: rest, r => do
    let r ← straussAdd1V (pre.drop (np * ecmultTableSize windowA)) i r (ps.wnafNa1, ps.bitsNa1)
    let r ← straussAddLamV (pre.drop (np * ecmultTableSize windowA)) (aux.drop (np * ecmultTableSize windowA)) i r
      (ps.wnafNaLam, ps.bitsNaLam)
    straussAddPointsV pre aux i (np + 1) rest r

/-- One addition of a multiple of a fixed point, ecmult_impl.h:334-341 -/
def straussAddGV (tab : ℕ → ℕ × ℕ) (window : ℕ) (Z : FeV α) (w : List Int × ℕ) (i : ℕ) (r : Gej (FeV α)) :
    Option (Gej (FeV α)) :=
  if i < w.2 ∧ w.1.getD i 0 ≠ 0 then do
    let t ← tableGetGeStorageV tab (w.1.getD i 0) window
    gejAddZinvVarV r t Z
  else some r

/-- The main loop, ecmult_impl.h:319-342 -/
def straussLoopV (t : GTab) (pre : List (Ge (FeV α))) (aux : List (FeV α)) (ps : List StraussPoint) (Z : FeV α)
    (wg1 wg128 : List Int × ℕ) : ℕ → Gej (FeV α) → Option (Gej (FeV α))
  | 0, r => some r
  | i + 1, r => do
    let d ← gejDoubleVarV r false
    let r ← straussAddPointsV pre aux i 0 ps d.1
    let r ← straussAddGV t.g t.window Z wg1 i r
    let r ← straussAddGV t.g128 t.window Z wg128 i r
    straussLoopV t pre aux ps Z wg1 wg128 i r

/-- The digits of the two halves of `ng`, ecmult_impl.h:304-317 -/
def straussWnafGV (window : ℕ) : Option Fn → Option ((List Int × ℕ) × (List Int × ℕ))
  | none => some (([], 0), ([], 0))
  | some ng => do
    let w1 ← wnafV 129 (scSplit128 ng).1 window
    let w2 ← wnafV 129 (scSplit128 ng).2 window
    some (w1, w2)

/-- The last product, ecmult_impl.h:344-346 -/
def straussFinishV (r : Gej (FeV α)) (Z : FeV α) : Option (Gej (FeV α)) :=
  if !r.infinity then do
    let z ← feMul r.z Z
    some { r with z := z }
  else some r

/-- `secp256k1_ecmult_strauss_wnaf`, ecmult_impl.h:237-347 -/
def straussWithV (tab : GTab) (pts : List (Gej (FeV α) × Fn)) (ng : Option Fn) : Option (Gej (FeV α)) := do
  let Z ← feSetInt 1
  let st ← pts.foldlM straussPrepV { Z := Z, table := [], ps := [], bits := 0 }
  let pre ← tableSetGlobalzV st.table
  let aux ← pre.mapM fun g => feMul g.x (feConstV constBeta)
  let wg ← straussWnafGV tab.window ng
  let bits := if wg.1.2 > st.bits then wg.1.2 else st.bits
  let bits := if wg.2.2 > bits then wg.2.2 else bits
  let r ← gejInfinityV
  let r ← straussLoopV tab pre aux st.ps st.Z wg.1 wg.2 bits r
  straussFinishV r st.Z

/-- `secp256k1_ecmult`, ecmult_impl.h:349-359 -/
def ecmultWithV (tab : GTab) (a : Gej (FeV α)) (na : Fn) (ng : Option Fn) : Option (Gej (FeV α)) :=
  straussWithV tab [(a, na)] ng

/-! ## constant time -/

/-- `secp256k1_ecmult_const_odd_multiples_table_globalz`, ecmult_const_impl.h:44-49 -/
def constOddMultiplesTableGlobalzV (a : Gej (FeV α)) : Option (List (Ge (FeV α)) × FeV α) := do
  let t ← oddMultiplesTableV constTableSize a
  let pre ← tableSetGlobalzV t.1
  some (pre, t.2)

/-- The loop of `ECMULT_CONST_TABLE_GET_GE`, ecmult_const_impl.h:90-99 -/
def constTableGetLoopV (pre : List (Ge (FeV α))) (index : ℕ) : ℕ → Option (Ge (FeV α))
  | 0 => do
    let g ← pre[0]?
    some ⟨g.x, g.y, false⟩
  | m + 1 => do
    let r ← constTableGetLoopV pre index m
    let g ← pre[m + 1]?
    let x ← feCmov r.x g.x (m + 1 == index)
    let y ← feCmov r.y g.y (m + 1 == index)
    some ⟨x, y, false⟩

/-- `ECMULT_CONST_TABLE_GET_GE`, ecmult_const_impl.h:61-103 -/
def constTableGetGeV (pre : List (Ge (FeV α))) (k : ℕ) : Option (Ge (FeV α)) := do
  let negative := (k >>> (constGroupSize - 1)) ^^^ 1
  let index := (((2 ^ 32 - negative) % 2 ^ 32) ^^^ k) &&& (2 ^ (constGroupSize - 1) - 1)
  check (decide (k < 2 ^ constGroupSize))
  check (decide (index < 2 ^ (constGroupSize - 1)))
  let r ← constTableGetLoopV pre index (constTableSize - 1)
  let negY ← feNegate r.y 1
  let y ← feCmov r.y negY (negative != 0)
  some ⟨r.x, y, false⟩

/-- `secp256k1_gej_double` applied `k` times, ecmult_const_impl.h:257-259 -/
def gejDoubleNV (r : Gej (FeV α)) : ℕ → Option (Gej (FeV α))
  | 0 => some r
  | k + 1 => do
    let r ← gejDoubleV r
    gejDoubleNV r k

/-- The first addition of a round, ecmult_const_impl.h:252-261 -/
def constFirstV (group : ℕ) (r : Gej (FeV α)) (t : Ge (FeV α)) : Option (Gej (FeV α)) :=
  if group = constGroups - 1 then gejSetGeV t
  else do
    let r ← gejDoubleNV r constGroupSize
    gejAddGeV r t

/-- The loop at ecmult_const_impl.h:244-264 -/
def constLoopV (preA preALam : List (Ge (FeV α))) (v1 v2 : Fn) : ℕ → Gej (FeV α) → Option (Gej (FeV α))
  | 0, r => some r
  | group + 1, r => do
    let bits1 ← getBitsVarV v1 (group * constGroupSize) constGroupSize
    let bits2 ← getBitsVarV v2 (group * constGroupSize) constGroupSize
    let t ← constTableGetGeV preA bits1
    let r ← constFirstV group r t
    let t ← constTableGetGeV preALam bits2
    let r ← gejAddGeV r t
    constLoopV preA preALam v1 v2 group r

/-- The check that a scalar has at most 129 bits, ecmult_const_impl.h:215-218 -/
def fits129 (v : Fn) : Bool := (List.range 127).all fun i => scGetBits v (129 + i) 1 == 0

/-- `secp256k1_ecmult_const` for a point that is not the point at infinity, ecmult_const_impl.h:207-267 -/
def ecmultConstMainV (a : Ge (FeV α)) (q : Fn) : Option (Gej (FeV α)) := do
  let s := q + scConst constK
  let s := scHalf s
  let sp ← splitLambdaV s
  let v1 := sp.1 + scConst constSOffset
  let v2 := sp.2 + scConst constSOffset
  check (fits129 v1 && fits129 v2)
  let r ← gejSetGeV a
  let t ← constOddMultiplesTableGlobalzV r
  let preALam ← t.1.mapM geMulLambdaV
  let r ← constLoopV t.1 preALam v1 v2 constGroups r
  let z ← feMul r.z t.2
  some { r with z := z }

/-- `secp256k1_ecmult_const`, ecmult_const_impl.h:124-268, with `secp256k1_ge_is_infinity` (group_impl.h:143-147) -/
def ecmultConstV (a : Ge (FeV α)) (q : Fn) : Option (Gej (FeV α)) := do
  check (geVerify a)
  if a.infinity then gejInfinityV else ecmultConstMainV a q

/-- The test that the point is on the curve, ecmult_const_impl.h:355-366 and 369-372: `c` computes the element that
must be a square. -/
def xonlyOnCurveV [FeMem α] (known : Bool) (c : Option (FeV α)) : Option Bool :=
  if known then some true else do
    let c ← c
    feIsSquareVarV c

/-- g = n³ + 7d³ and the result of the test, ecmult_const_impl.h:342-373 -/
def xonlyPolyV [FeMem α] (n : FeV α) : Option (FeV α) → Bool → Option (FeV α × Bool)
  | some d, known => do
    let g ← feSqr n
    let g ← feMul g n
    let z ← feNormalizesToZero d
    check (!z)
    let b ← feSqr d
    check (decide (curveB ≤ 8))
    let b ← feMulInt b curveB
    let b ← feMul b d
    let g ← feAdd g b
    let ok ← xonlyOnCurveV known (feMul g d)
    some (g, ok)
  | none, known => do
    let g ← feSqr n
    let g ← feMul g n
    let g ← feAddInt g curveB
    let ok ← xonlyOnCurveV known (some g)
    some (g, ok)

/-- The product at ecmult_const_impl.h:392 -/
def xonlyDenV (i : FeV α) : Option (FeV α) → Option (FeV α)
  | some d => feMul i d
  | none => some i

/-- The multiplication and the division, ecmult_const_impl.h:375-394, with `secp256k1_gej_is_infinity` (group_impl.h:440-444) -/
def xonlyMulV (n : FeV α) (d : Option (FeV α)) (q : Fn) (g : FeV α) : Option (FeV α) := do
  let px ← feMul g n
  let py ← feSqr g
  check (!scIsZero q)
  let rj ← ecmultConstV ⟨px, py, false⟩ q
  check (gejVerify rj)
  check (!rj.infinity)
  let i ← feSqr rj.z
  let i ← feMul i g
  let i ← xonlyDenV i d
  let i ← feInv i
  feMul rj.x i

/-- `secp256k1_ecmult_const_xonly`, ecmult_const_impl.h:270-397; the inner option is the return value -/
def ecmultConstXonlyV [FeMem α] (n : FeV α) (d : Option (FeV α)) (q : Fn) (known : Bool) : Option (Option (FeV α)) := do
  let g ← xonlyPolyV n d known
  if !g.2 then some none
  else do
    let r ← xonlyMulV n d q g.1
    some (some r)

/-! ## the generator -/

/-- One addition, ecmult_gen_impl.h:252-264 -/
def genAddV (ctx : GenCtxOf (FeV α)) (first : Bool) (r : Gej (FeV α)) (add : Ge (FeV α)) : Option (Gej (FeV α)) :=
  if first then do
    let r ← gejSetGeV add
    gejRescaleV r ctx.projBlind
  else gejAddGeV r add

/-- Body of the inner loop, ecmult_gen_impl.h:198-265 -/
def genBlockV (ctx : GenCtxOf (FeV α)) (recoded : List UInt32) (st : GenStateOf (FeV α)) (block : ℕ) :
    Option (GenStateOf (FeV α)) := do
  let c := ctx.cfg
  let g := genGather recoded c.spacing c.teeth 0 0 st.bitPos
  let sign := (g.1 >>> UInt32.ofNat (c.teeth - 1)) &&& 1
  let abs := (g.1 ^^^ (-sign)) &&& UInt32.ofNat (c.points - 1)
  check (sign == 0 || sign == 1)
  check (decide (abs.toNat < c.points))
  let adds := genLookup c block abs st.adds
  let add ← geFromStorageV adds
  let neg ← feNegate add.y 1
  let y ← feCmov add.y neg (sign != 0)
  let r ← genAddV ctx st.first st.r { add with y := y }
  some { r := r, adds := adds, first := false, bitPos := g.2 }

/-- The inner loop, ecmult_gen_impl.h:197-266 -/
def genInnerV (ctx : GenCtxOf (FeV α)) (recoded : List UInt32) (combOff : ℕ) (st : GenStateOf (FeV α)) :
    Option (GenStateOf (FeV α)) :=
  (List.range ctx.cfg.blocks).foldlM (genBlockV ctx recoded) { st with bitPos := combOff }

/-- The outer loop, ecmult_gen_impl.h:192-271: iterations `k, …, 0` with a doubling between two of them -/
def genOuterV (ctx : GenCtxOf (FeV α)) (recoded : List UInt32) : ℕ → GenStateOf (FeV α) →
    Option (GenStateOf (FeV α))
  | 0, st => genInnerV ctx recoded 0 st
  | k + 1, st => do
    let st ← genInnerV ctx recoded (k + 1) st
    let r ← gejDoubleV st.r
    genOuterV ctx recoded k { st with r := r }

/-- `secp256k1_ecmult_gen`, ecmult_gen_impl.h:54-282.  `r` is uninitialised at first. -/
def ecmultGenV (ctx : GenCtxOf (FeV α)) (gn : Fn) : Option (Gej (FeV α)) := do
  let d := ctx.scalarOffset + gn
  let recoded := genRecode ctx.cfg d
  let st ← genOuterV ctx recoded (ctx.cfg.spacing - 1)
    ⟨⟨⟨setInt 0, 0, true⟩, ⟨setInt 0, 0, true⟩, ⟨setInt 0, 0, true⟩, false⟩, (0, 0), true, 0⟩
  gejAddGeV st.r ctx.geOffset

/-- The reset of the blinding, ecmult_gen_impl.h:297-303 -/
def genBlindResetV (ctx : GenCtxOf (FeV α)) : Option (GenCtxOf (FeV α)) := do
  let g ← geNegV (⟨feConstV 0x79BE667EF9DCBBAC55A06295CE870B07029BFCDB2DCE28D959F2815B16F81798,
    feConstV 0x483ADA7726A3C4655DA4FBFC0E1108A8FD17B448A68554199C47D08FFB10D4B8, false⟩ : Ge (FeV α))
  some { ctx with geOffset := g, scalarOffset := 1 + genScalarDiff ctx.cfg, projBlind := feConstV 1 }

/-- Installing a projective factor and a blinding scalar, ecmult_gen_impl.h:318-319 and 326-332; `f` is the
element read from the first 32 bytes of the generator. -/
def genBlindApplyV (ctx : GenCtxOf (FeV α)) (f : FeV α) (b : Fn) : Option (GenCtxOf (FeV α)) := do
  let z ← feNormalizesToZero f
  let f ← feCmov f (feConstV 1) z
  let ctx := { ctx with projBlind := f }
  let b := genBlindScalar b
  let gb ← ecmultGenV ctx b
  let g ← geSetGejV gb
  some { ctx with scalarOffset := -b + genScalarDiff ctx.cfg, geOffset := g.1 }

/-- `secp256k1_ecmult_gen_blind`, ecmult_gen_impl.h:285-339: `none` is a NULL seed; with a seed, the field element and the
scalar are those read from the two outputs of the generator of random numbers, which is not repeated here (the hash code has
no checks that depend on the build, except on buffer positions). -/
def genBlindV (ctx : GenCtxOf (FeV α)) : Option (FeV α × Fn) → Option (GenCtxOf (FeV α))
  | none => genBlindResetV ctx
  | some e => genBlindApplyV ctx e.1 e.2

/-- `secp256k1_ecmult_gen_context_build` (ecmult_gen_impl.h:17-20), followed by any number of calls of
`secp256k1_ecmult_gen_blind`. -/
def genHistoryV (ctx : GenCtxOf (FeV α)) (calls : List (Option (FeV α × Fn))) : Option (GenCtxOf (FeV α)) := do
  let ctx ← genBlindV ctx none
  calls.foldlM genBlindV { ctx with built := true }

end Secp.Model.Verify
