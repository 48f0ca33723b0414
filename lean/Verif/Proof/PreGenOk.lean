import Verif.Model.EcmultGen
import Verif.Proof.PreGOk
import Verif.Proof.Pow2G
import Mathlib.Algebra.BigOperators.Group.Finset.Basic
import Mathlib.Algebra.Order.BigOperators.Group.Finset

/-!
# The comb tables contain `(m - mask(b)/2)·G`

Checked by kernel computation for the three tables of precomputed_ecmult_gen.c.
-/

namespace Secp
open Model FeOps WeierstrassCurve Finset

/-- `Σ_t bit_t(i)·2^((b·T + t)·S)`: the bits of `i` spread over the positions of `mask(b)`. -/
def spread (T S b i : ℕ) : ℕ := ∑ t ∈ range T, i / 2 ^ t % 2 * 2 ^ ((b * T + t) * S)

/-- The scalar `m - mask(b)/2` belonging to index `i` of block `b`. -/
noncomputable def combCoef (T S b i : ℕ) : Fn :=
  (spread T S b i : Fn) - (spread T S b (2 ^ T - 1) : Fn) * (2 : Fn)⁻¹

/-- What the table has to contain. -/
def CombTableOk (c : CombCfg) : Prop :=
  ∀ b < c.blocks, ∀ i < c.points, Entry (c.table b i) (combCoef c.teeth c.spacing b i • G)

/-! ### Powers of two -/

def dblChainOk : Nat × Nat → List (Nat × Nat) → Bool
  | _, [] => true
  | q, r :: rest =>
    match sameAffine (natMul ⟨q.1, q.2, false⟩ 2 2 natInf) r with
    | true => dblChainOk r rest
    | false => false

theorem dblChainOk_entry (l : List (Nat × Nat)) : ∀ (q : Nat × Nat) (k : ℕ),
    Entry q (2 ^ k • G) → dblChainOk q l = true →
      ∀ i, i < l.length → Entry (l.getD i (0, 0)) (2 ^ (k + 1 + i) • G) := by
  induction l with
  | nil => intro q k _ _ i hi; simp at hi
  | cons r rest ih =>
    intro q k hq h i hi
    simp only [dblChainOk] at h
    split at h
    · rename_i hr
      have hm := natMul_rep (g := ⟨q.1, q.2, false⟩) hq 2 2 natInf 0 (.of_inf rfl)
      have e := sameAffine_entry hm hr
      rw [nsmul_zero, zero_add, show 2 % 2 ^ 2 = 2 by rfl, ← mul_smul, ← pow_succ'] at e
      cases i with
      | zero => simpa using e
      | succ i =>
        have := ih r (k + 1) e h i (by simpa using hi)
        rw [List.getD_cons_succ, show k + 1 + (i + 1) = k + 1 + 1 + i by omega]
        exact this
    · exact absurd h (by simp)

theorem pow2G_ok : (Nat.beq (pow2G.getD 0 (0, 0)).1 gx && Nat.beq (pow2G.getD 0 (0, 0)).2 gy &&
    Nat.beq pow2G.length 264 && dblChainOk (pow2G.getD 0 (0, 0)) pow2G.tail) = true := by
  decide +kernel

theorem pow2G_entry (k : ℕ) (hk : k < 264) : Entry (pow2G.getD k (0, 0)) (2 ^ k • G) := by
  have h := pow2G_ok
  simp only [Bool.and_eq_true, Nat.beq_eq] at h
  obtain ⟨⟨⟨h1, h2⟩, h3⟩, h4⟩ := h
  generalize pow2G = l at *
  match l with
  | [] => simp at h3
  | q :: rest =>
    have e0 : Entry q (2 ^ 0 • G) := by
      rw [pow_zero, one_smul]
      simp only [List.getD_cons_zero] at h1 h2
      refine GeRep.intro rfl ?_ ?_
      · simp only [geFromStorage, FeOps.ofStorage]; rw [h1]
      · simp only [geFromStorage, FeOps.ofStorage]; rw [h2]
    cases k with
    | zero => simpa using e0
    | succ k =>
      have := dblChainOk_entry rest q 0 e0 (by simpa using h4) k (by simp at h3; omega)
      rw [List.getD_cons_succ, show k + 1 = 0 + 1 + k by omega]
      exact this

/-! ### The blocks -/

theorem spread_zero (T S b : ℕ) : spread T S b 0 = 0 := by simp [spread]

theorem spread_step (T S b i k : ℕ) (hk : k < T) (h1 : 2 ^ k ≤ i) (h2 : i < 2 ^ (k + 1)) :
    spread T S b i = spread T S b (i - 2 ^ k) + 2 ^ ((b * T + k) * S) := by
  unfold spread
  rw [← Finset.add_sum_erase _ _ (mem_range.2 hk), ← Finset.add_sum_erase (range T) (fun t =>
    (i - 2 ^ k) / 2 ^ t % 2 * 2 ^ ((b * T + t) * S)) (mem_range.2 hk)]
  have hpos : 0 < 2 ^ k := Nat.two_pow_pos k
  have e1 : i / 2 ^ k = 1 := by
    rw [pow_succ] at h2
    exact Nat.div_eq_of_lt_le (by omega) (by omega)
  have e2 : (i - 2 ^ k) / 2 ^ k = 0 := by
    rw [pow_succ] at h2
    exact Nat.div_eq_of_lt (by omega)
  rw [e1, e2]
  have e3 : ∑ x ∈ (range T).erase k, i / 2 ^ x % 2 * 2 ^ ((b * T + x) * S) =
      ∑ x ∈ (range T).erase k, (i - 2 ^ k) / 2 ^ x % 2 * 2 ^ ((b * T + x) * S) := by
    apply Finset.sum_congr rfl
    intro t ht
    congr 1
    rcases lt_or_gt_of_ne (Finset.ne_of_mem_erase ht) with h | h
    · obtain ⟨j, rfl⟩ := Nat.exists_eq_add_of_lt h
      have hi : i = (i - 2 ^ (t + j + 1)) + 2 ^ t * (2 * 2 ^ j) := by
        have : 2 ^ (t + j + 1) = 2 ^ t * (2 * 2 ^ j) := by ring
        omega
      conv_lhs => rw [hi]
      rw [Nat.add_mul_div_left _ _ (Nat.two_pow_pos t), Nat.add_mul_mod_self_left]
    · have : 2 ^ (k + 1) ≤ 2 ^ t := Nat.pow_le_pow_right (by omega) (by omega)
      rw [Nat.div_eq_of_lt (by omega), Nat.div_eq_of_lt (by omega)]
  rw [e3]
  simp only [Nat.zero_mod, zero_mul, zero_add, Nat.one_mod, one_mul]
  ring

def maskNat (T S b : ℕ) : ℕ := (List.range T).foldl (fun a t => a + 2 ^ ((b * T + t) * S)) 0

theorem maskNat_eq (T S b : ℕ) : maskNat T S b = spread T S b (2 ^ T - 1) := by
  have key : ∀ U, (List.range U).foldl (fun a t => a + 2 ^ ((b * T + t) * S)) 0 =
      ∑ t ∈ range U, 2 ^ ((b * T + t) * S) := by
    intro U
    induction U with
    | zero => rfl
    | succ U ih => rw [List.range_succ, List.foldl_append, ih, Finset.sum_range_succ]; rfl
  rw [maskNat, key, spread]
  apply Finset.sum_congr rfl
  intro t ht
  have ht := mem_range.1 ht
  have : (2 ^ T - 1) / 2 ^ t % 2 = 1 := by
    have h := Nat.testBit_two_pow_sub_one T t
    rw [decide_eq_true ht] at h
    rw [Nat.testBit_eq_decide_div_mod_eq] at h
    simpa using h
  rw [this, one_mul]

def combBase (T S b : ℕ) : ℕ := (n - maskNat T S b % n) * ((n + 1) / 2) % n

def combOk (c : CombCfg) : Bool :=
  (List.range c.blocks).all fun b =>
    sameAffine (natMul natG (combBase c.teeth c.spacing b) 256 natInf) (c.table b 0) &&
    (List.range c.points).all fun i => Nat.beq i 0 ||
      (Nat.ble (Nat.log2 i + 1) c.teeth && Nat.ble ((b * c.teeth + Nat.log2 i) * c.spacing + 1) 264 &&
        addOk (c.table b (i - 2 ^ Nat.log2 i))
          (pow2G.getD ((b * c.teeth + Nat.log2 i) * c.spacing) (0, 0)) (c.table b i))

theorem two_mul_half_n : (((n + 1) / 2 : ℕ) : Fn) = (2 : Fn)⁻¹ := by
  have h : (2 : Fn) * (((n + 1) / 2 : ℕ) : Fn) = 1 := by
    have : 2 * ((n + 1) / 2) = n + 1 := by decide +kernel
    have h2 := congrArg (Nat.cast : ℕ → Fn) this
    rw [Nat.cast_mul, Nat.cast_add, ZMod.natCast_self, zero_add, Nat.cast_one] at h2
    exact h2
  exact eq_inv_of_mul_eq_one_right h

theorem combOk_table {c : CombCfg} (h : combOk c = true) : CombTableOk c := by
  intro b hb i
  unfold combOk at h
  have hB := List.all_eq_true.1 h b (List.mem_range.2 hb)
  rw [Bool.and_eq_true] at hB
  obtain ⟨h0, hI⟩ := hB
  induction i using Nat.strong_induction_on with
  | _ i ih =>
    intro hi
    by_cases hz : i = 0
    · subst hz
      have := natMul_entry (combBase c.teeth c.spacing b) _
        (lt_trans (Nat.mod_lt _ n_pos) (by decide +kernel)) h0
      rw [← natCast_smul] at this
      convert this using 2
      unfold combCoef combBase
      rw [spread_zero, Nat.cast_zero, zero_sub, ← maskNat_eq, ZMod.natCast_mod, Nat.cast_mul,
        two_mul_half_n, Nat.cast_sub (le_of_lt (Nat.mod_lt _ n_pos)), ZMod.natCast_self,
        ZMod.natCast_mod]
      ring
    · have h1 := List.all_eq_true.1 hI i (List.mem_range.2 hi)
      simp only [Bool.or_eq_true, Bool.and_eq_true, Nat.beq_eq, Nat.ble_eq] at h1
      obtain ⟨⟨ht, hs⟩, ha⟩ := h1.resolve_left hz
      have hl : 2 ^ Nat.log2 i ≤ i := Nat.log2_self_le hz
      have hu : i < 2 ^ (Nat.log2 i + 1) := Nat.lt_log2_self
      have hpos := Nat.two_pow_pos (Nat.log2 i)
      have hj := ih (i - 2 ^ Nat.log2 i) (by omega) (by omega)
      have := addOk_entry ha hj (pow2G_entry _ (by omega))
      rw [← natCast_smul, ← add_smul] at this
      convert this using 2
      unfold combCoef
      rw [spread_step _ _ _ _ _ (by omega) hl hu, Nat.cast_add]
      ring

theorem comb2_ok : combOk comb2 = true := by decide +kernel
theorem comb22_ok : combOk comb22 = true := by decide +kernel
theorem comb86_ok : combOk comb86 = true := by decide +kernel

end Secp
