import Verif.Proof.ComputeTableOk
import Verif.Props.C16
import Verif.Props.C68

/-!
# C75: the programs that compute the static tables

The tables in precomputed_ecmult.c and precomputed_ecmult_gen.c are written by two programs in the same
repository.  For every window size, every comb configuration and every base point of the curve the
arrays they compute hold the points the multiplication routines expect; run with the parameters and
the generator of the repository, they give exactly the shipped tables; and a library built with the
table computed for any parameters that ecmult_gen.h accepts makes the right public keys.
`AffineOf q P` says that `q` is the pair of affine coordinates of `P`, both below `p`.
-/

namespace Secp
open Model Finset
open Secp.Spec (Bytes beNat keyObject)

/-- `secp256k1_ecmult_compute_table`: the odd multiples of the base point, for a window of up to 256
bits. -/
theorem C75_odd_multiples {w : ℕ} (hw : w ≤ 256) {g : Gej Fp} {P : Pt} (hg : GejRep 7 g P) (hP : P ≠ 0) :
    (ecmultComputeTable w g).length = 2 ^ (w - 2) ∧
      ∀ j < 2 ^ (w - 2), AffineOf ((ecmultComputeTable w g).getD j (0, 0)) ((2 * j + 1) • P) :=
  ⟨ecmultComputeTable_length w g, fun _ hj => ecmultComputeTable_spec hw hg hP hj⟩

/-- `secp256k1_ecmult_compute_two_tables`: the odd multiples of the base point and of `2^128` times
it. -/
theorem C75_two_tables {w : ℕ} (hw : w ≤ 256) {g : Ge Fp} {P : Pt} (hg : GeRep 7 g P) (hP : P ≠ 0)
    {j : ℕ} (hj : j < 2 ^ (w - 2)) :
    AffineOf ((ecmultComputeTwoTables w g).1.getD j (0, 0)) ((2 * j + 1) • P) ∧
      AffineOf ((ecmultComputeTwoTables w g).2.getD j (0, 0)) ((2 * j + 1) • 2 ^ 128 • P) := by
  have h1 := gejSetGe_rep hg
  obtain ⟨k, hk⟩ : ∃ k, 128 = k := ⟨_, rfl⟩
  have hk2 : 2 ^ k < n := by rw [← hk]; decide +kernel
  have h2 := doubles_rep k h1
  rw [ecmultComputeTwoTables, hk]
  refine ⟨ecmultComputeTable_spec hw h1 hP hj, ecmultComputeTable_spec hw h2 ?_ hj⟩
  rw [← natCast_smul, Ne, smul_eq_zero_iff, not_or]
  refine ⟨fun h => ?_, hP⟩
  rw [ZMod.natCast_eq_zero_iff] at h
  exact Nat.not_dvd_of_pos_of_lt (Nat.two_pow_pos k) hk2 h

/-- For windows up to the 15 bits of the repository the two arrays are the shipped tables (their first
entries, for a smaller window). -/
theorem C75_shipped_odd_multiples {w : ℕ} (hw : w ≤ 15) :
    ecmultComputeTwoTables w geConstG =
      ((List.range (2 ^ (w - 2))).map preG, (List.range (2 ^ (w - 2))).map preG128) := by
  have hle : 2 ^ (w - 2) ≤ 8192 := by
    have : 2 ^ (w - 2) ≤ 2 ^ 13 := Nat.pow_le_pow_right (by norm_num) (by omega)
    simpa using this
  have h := fun j (hj : j < 2 ^ (w - 2)) =>
    C75_two_tables (w := w) (by omega) geConstG_rep G_ne_zero hj
  have l1 : (ecmultComputeTwoTables w geConstG).1.length = 2 ^ (w - 2) := by
    unfold ecmultComputeTwoTables; exact ecmultComputeTable_length _ _
  have l2 : (ecmultComputeTwoTables w geConstG).2.length = 2 ^ (w - 2) := by
    unfold ecmultComputeTwoTables; exact ecmultComputeTable_length _ _
  generalize ecmultComputeTwoTables w geConstG = t at h l1 l2 ⊢
  refine Prod.ext ?_ ?_
  · exact table_eq l1 fun j hj => (h j hj).1.unique (preG_affine (by omega))
  · exact table_eq l2 fun j hj => (h j hj).2.unique (preG128_affine (by omega))

theorem windowTab_ok {w : ℕ} (h2 : 2 ≤ w) (h24 : w ≤ 24) : GTabOk (windowTab w) := by
  unfold windowTab
  generalize hW : (if w < 15 then 15 else w) = W
  have hW1 : w ≤ W ∧ W ≤ 24 := by subst hW; split <;> omega
  have h := fun j (hj : j < 2 ^ (W - 2)) =>
    C75_two_tables (w := W) (by omega) geConstG_rep G_ne_zero hj
  have hle : 2 ^ (w - 2) ≤ 2 ^ (W - 2) := Nat.pow_le_pow_right (by norm_num) (by omega)
  generalize ecmultComputeTwoTables W geConstG = t at h
  exact ⟨h2, fun m hm => (h m (lt_of_lt_of_le hm hle)).1.entry,
    fun m hm => (h m (lt_of_lt_of_le hm hle)).2.entry⟩

/-- `secp256k1_ecmult` in a library built with any `ECMULT_WINDOW_SIZE` that ecmult.h accepts and the
tables computed for it is `na·A + ng·G`. -/
theorem C75_ecmult {w : ℕ} (h2 : 2 ≤ w) (h24 : w ≤ 24) {a : Gej Fp} {A : Pt} (ha : GejRep 7 a A)
    (na ng : Fn) : GejRep 7 (ecmultWith (windowTab w) a na (some ng)) (na.val • A + ng.val • G) := by
  rw [val_smul, val_smul]; exact ecmultWith_rep (windowTab_ok h2 h24) ha na (some ng)

/-- `secp256k1_ecmult_strauss_wnaf` likewise, on any list of points and scalars. -/
theorem C75_strauss {w : ℕ} (h2 : 2 ≤ w) (h24 : w ≤ 24) (pts : List (Gej Fp × Fn × Pt))
    (h : ∀ t ∈ pts, GejRep 7 t.1 t.2.2) (ng : Fn) :
    GejRep 7 (straussWith (windowTab w) (pts.map fun t => (t.1, t.2.1)) (some ng))
      ((pts.map fun t => t.2.1.val • t.2.2).sum + ng.val • G) := by
  have h2' : List.Forall₂ (fun a P => GejRep 7 a.1 P) (pts.map fun t => (t.1, t.2.1))
      (pts.map fun t => t.2.2) := by
    induction pts with
    | nil => exact .nil
    | cons t l ih => exact .cons (h t (by simp)) (ih fun u hu => h u (by simp [hu]))
  have := straussWith_rep (windowTab_ok h2 h24) h2' (some ng)
  have e : linComb ((pts.map fun t => t.2.2).zip ((pts.map fun t => (t.1, t.2.1)).map Prod.snd)) =
      (pts.map fun t => t.2.1.val • t.2.2).sum := by
    clear this h2' h
    induction pts with
    | nil => rfl
    | cons t l ih =>
      simp only [linComb, List.map_cons, List.zip_cons_cons, List.sum_cons] at ih ⊢
      rw [ih, val_smul]
  rw [e] at this
  rw [val_smul]
  exact this

theorem computed_stored (w : ℕ) (g : Gej Fp) (i : ℕ) : Stored ((ecmultComputeTable w g).getD i (0, 0)) := by
  have h0 : Stored (0, 0) := ⟨by norm_num, by norm_num⟩
  have hS : ∀ a : Ge Fp, Stored (geToStorage a) := fun a =>
    ⟨lt_trans (ZMod.val_lt a.x) (by decide +kernel), lt_trans (ZMod.val_lt a.y) (by decide +kernel)⟩
  have key : ∀ (d : Ge Fp) (k : ℕ) (g : Ge Fp) (i : ℕ), Stored ((computeTableLoop d k g).getD i (0, 0)) := by
    intro d k
    induction k with
    | zero => intro g i; simpa [computeTableLoop] using h0
    | succ k ih =>
      intro g i
      rw [computeTableLoop]
      cases i with
      | zero => rw [List.getD_cons_zero]; exact hS _
      | succ i => rw [List.getD_cons_succ]; exact ih _ i
  unfold ecmultComputeTable
  cases i with
  | zero => rw [List.getD_cons_zero]; exact hS _
  | succ i => rw [List.getD_cons_succ]; exact key _ _ _ i

/-- The same on the limbs of the 64-bit field. -/
theorem C75_ecmult_limbs [Fe5.LimbInv] {w : ℕ} (h2 : 2 ≤ w) (h24 : w ≤ 24) {a : Gej Fe5} {A : Pt}
    (ha : GejOk a A) (na ng : Fn) :
    GejOk (ecmultWith (windowTab w) a na (some ng)) (na.val • A + ng.val • G) :=
  (ecmultWith_limb (t := windowTab w) (computed_stored _ _) (computed_stored _ _) ha.limb na (some ng)).ok
    (C75_ecmult h2 h24 ha.2.2.2 na ng)

/-- The same on the limbs of the 32-bit field. -/
theorem C75_ecmult_limbs32 [Fe10.LimbInv] {w : ℕ} (h2 : 2 ≤ w) (h24 : w ≤ 24) {a : Gej Fe10} {A : Pt}
    (ha : GejOk32 a A) (na ng : Fn) :
    GejOk32 (ecmultWith (windowTab w) a na (some ng)) (na.val • A + ng.val • G) :=
  (ecmultWith_limb (t := windowTab w) (computed_stored _ _) (computed_stored _ _) ha.limb na (some ng)).ok32
    (C75_ecmult h2 h24 ha.2.2.2 na ng)

/-- `secp256k1_ecmult_gen_compute_table` for any number of blocks, teeth that span at most 254 bits, and any
base point: entry `i` of block `b` is `Σ_t ±2^((b·teeth + t)·spacing)/2` times the base point, with `+`
where bit `t` of `i` is set. -/
theorem C75_comb {B T S : ℕ} (hT : 1 ≤ T) (hS : 1 ≤ S) (hw : (T - 1) * S ≤ 254) {g : Ge Fp} {P : Pt}
    (hg : GeRep 7 g P) (hP : P ≠ 0) {b i : ℕ} (hb : b < B) (hi : i < 2 ^ (T - 1)) :
    AffineOf ((ecmultGenComputeTable g B T S).getD (b * 2 ^ (T - 1) + i) (0, 0))
      ((∑ t ∈ range T, (if i.testBit t then 1 else -1) * 2 ^ ((b * T + t) * S) * (2 : Fn)⁻¹) • P) := by
  have e : (∑ t ∈ range T, (if i.testBit t then 1 else -1) * 2 ^ ((b * T + t) * S) * (2 : Fn)⁻¹) =
      combCoef T S b i := by
    rw [combCoef, spread_full, spread, Nat.cast_sum, Nat.cast_sum, Finset.sum_mul,
      ← Finset.sum_sub_distrib]
    apply Finset.sum_congr rfl
    intro t _
    have h2 := two_mul_inv_fn
    rw [Nat.testBit_eq_decide_div_mod_eq]
    by_cases h : i / 2 ^ t % 2 = 1
    · rw [h]
      push_cast
      simp only [decide_true, if_true]
      linear_combination (2 : Fn) ^ ((b * T + t) * S) * h2
    · rw [show i / 2 ^ t % 2 = 0 by omega]
      push_cast
      simp only [zero_ne_one, decide_false, Bool.false_eq_true, if_false]
      ring
  rw [e]
  refine ecmultGenComputeTable_rep hS hT hg hb hi ?_
  rw [Ne, smul_eq_zero_iff, not_or]
  exact ⟨combCoef_ne_zero hT hS hw b i, hP⟩

/-- The three shipped comb tables are what `precompute_ecmult_gen` prints for their parameters. -/
theorem C75_shipped_combs : PreGen.c2_5 = genTableRows 2 5 ∧ PreGen.c11_6 = genTableRows 11 6 ∧
    PreGen.c43_6 = genTableRows 43 6 :=
  ⟨congrArg CombCfg.data comb2_computed, congrArg CombCfg.data comb22_computed,
    congrArg CombCfg.data comb86_computed⟩

/-- `secp256k1_ecmult_gen` with the table computed for any accepted parameters is multiplication of the
generator, in every blinding state that invariant `GenCtxOk` of C38 describes. -/
theorem C75_generator {B T : ℕ} (hc : (combOf B T).Accepted) (seed : Option (List UInt8)) (k : Fn) :
    GejRep 7 (ecmultGen (ecmultGenBlind (ecmultGenContextBuild ⟨combOf B T, false, 0, geConstG, 0⟩) seed) k)
      (k.val • G) := by
  rw [val_smul]
  exact ecmultGen_rep (ecmultGenBlind_ok (ecmultGenContextBuild_ok
    (CombCfg.Build.valid (Or.inr (Or.inr (Or.inr ⟨hc, rfl⟩))))) seed) k

/-- A library built with the table computed for any parameters accepted by ecmult_gen.h, on any context
made by `secp256k1_context_create` and randomized with any seeds: the public key of a secret key `d` is
`d·G`. -/
theorem C75_pubkey_create {B T : ℕ} (hc : (combOf B T).Accepted) {junk ctx : Ctx} {flags : UInt32}
    (hj : junk.gen.cfg = combOf B T) (h : (contextCreate junk flags).val = some ctx)
    (seeds : List (Option (List UInt8))) (old : Bytes) {seckey : Bytes} (hl : seckey.length = 32)
    (h1 : 1 ≤ beNat seckey) (h2 : beNat seckey < n) :
    ecPubkeyCreate (seeds.foldl (fun c s => (contextRandomize c s).val) ctx) (some old) (some seckey) =
      ⟨1, 0, some (keyObject (beNat seckey • G))⟩ := by
  have h0 : LiveCtx ctx :=
    .create (by rw [hj]; exact Or.inr (Or.inr (Or.inr ⟨hc, rfl⟩))) h
  have key : ∀ (l : List (Option (List UInt8))) (c : Ctx), LiveCtx c →
      LiveCtx (l.foldl (fun c s => (contextRandomize c s).val) c) := by
    intro l
    induction l with
    | nil => intro c hc; exact hc
    | cons s l ih => intro c hc; exact ih _ (.randomize hc s)
  exact C16_pubkey_create (key seeds ctx h0) old hl h1 h2

/-- The hypotheses of the odd multiples: the generator itself, with a window of 24 bits. -/
example : AffineOf ((ecmultComputeTable 24 (gejSetGe geConstG)).getD 1000000 (0, 0)) (2000001 • G) :=
  (C75_odd_multiples (by norm_num) (gejSetGe_rep geConstG_rep) G_ne_zero).2 1000000 (by norm_num)

/-- A window that is not shipped: `5·(3·G) + 7·G`. -/
example : GejRep (7 : Fp) (ecmultWith (windowTab 20) (gejSetGe (geFromStorage (preG 1))) 5 (some 7)) (22 • G) := by
  have h := C75_ecmult (w := 20) (by norm_num) (by norm_num) (gejSetGe_rep (preG_entry 1 (by norm_num))) 5 7
  have e5 : (5 : Fn).val = 5 := by decide +kernel
  have e7 : (7 : Fn).val = 7 := by decide +kernel
  rw [e5, e7, ← mul_smul, ← add_smul] at h
  exact h

/-- Parameters that are not shipped are accepted: 32 blocks of 8 teeth, and a single block with one
tooth. -/
example : (combOf 32 8).Accepted ∧ (combOf 1 1).Accepted ∧ (combOf 43 6).Accepted ∧
    ¬ (combOf 64 8).Accepted := by
  unfold CombCfg.Accepted CombCfg.bits CombCfg.spacing combOf
  decide

/-- A comb with 2 blocks of 3 teeth at distance 5 over the point `3·G`: entry 1 of block 1. -/
example : AffineOf ((ecmultGenComputeTable (geFromStorage (preG 1)) 2 3 5).getD 5 (0, 0))
    (((2 ^ 15 - 2 ^ 20 - 2 ^ 25) * (2 : Fn)⁻¹) • 3 • G) := by
  have h := C75_comb (B := 2) (T := 3) (S := 5) (b := 1) (i := 1) (by norm_num) (by norm_num) (by norm_num)
    (preG_entry 1 (by norm_num)) (odd_smul_ne_zero G_ne_zero (by decide +kernel) (by norm_num))
    (by norm_num) (by norm_num)
  rw [Finset.sum_range_succ, Finset.sum_range_succ, Finset.sum_range_succ, Finset.sum_range_zero] at h
  have t0 : Nat.testBit 1 0 = true := by decide
  have t1 : Nat.testBit 1 1 = false := by decide
  have t2 : Nat.testBit 1 2 = false := by decide
  rw [t0, t1, t2] at h
  have e : ((2 ^ 15 - 2 ^ 20 - 2 ^ 25) * (2 : Fn)⁻¹) =
      0 + (if true = true then 1 else -1) * 2 ^ ((1 * 3 + 0) * 5) * (2 : Fn)⁻¹ +
        (if false = true then 1 else -1) * 2 ^ ((1 * 3 + 1) * 5) * (2 : Fn)⁻¹ +
        (if false = true then 1 else -1) * 2 ^ ((1 * 3 + 2) * 5) * (2 : Fn)⁻¹ := by
    rw [if_pos rfl, if_neg (by decide)]
    norm_num
    ring
  rw [e]
  exact h

end Secp
