import Verif.Proof.ComputeTable
import Verif.Proof.Stored

/-! The comb tables computed for the parameters accepted by ecmult_gen.h; the shipped tables. -/

namespace Secp
open Model FeOps WeierstrassCurve Finset

theorem sum_pow_lt {S : ℕ} (hS : 1 ≤ S) (T : ℕ) : ∑ t ∈ range T, 2 ^ (t * S) < 2 ^ (T * S) := by
  induction T with
  | zero => simp
  | succ T ih =>
    rw [Finset.sum_range_succ]
    have h1 : 2 ^ (T * S + 1) ≤ 2 ^ ((T + 1) * S) :=
      Nat.pow_le_pow_right (by norm_num) (by rw [add_mul, one_mul]; omega)
    rw [pow_succ] at h1
    omega

theorem spread_le (T S b i : ℕ) : spread T S b i ≤ spread T S b (2 ^ T - 1) := by
  rw [spread_full, spread]
  apply Finset.sum_le_sum
  intro t _
  calc i / 2 ^ t % 2 * 2 ^ ((b * T + t) * S) ≤ 1 * 2 ^ ((b * T + t) * S) :=
        Nat.mul_le_mul_right _ (by omega)
    _ = _ := one_mul _

theorem spread_shift (T S b i : ℕ) : spread T S b i = 2 ^ (b * T * S) * spread T S 0 i := by
  rw [spread, spread, Finset.mul_sum]
  apply Finset.sum_congr rfl
  intro t _
  rw [zero_mul, zero_add, add_mul, pow_add]
  ring

theorem mask_odd {T S : ℕ} (hT : 1 ≤ T) (hS : 1 ≤ S) : spread T S 0 (2 ^ T - 1) % 2 = 1 := by
  rw [spread_full]
  obtain ⟨k, rfl⟩ : ∃ k, T = k + 1 := ⟨T - 1, by omega⟩
  rw [Finset.sum_range_succ']
  have h : (∑ t ∈ range k, 2 ^ ((0 * (k + 1) + (t + 1)) * S)) % 2 = 0 := by
    rw [← Nat.dvd_iff_mod_eq_zero]
    apply Finset.dvd_sum
    intro t _
    apply dvd_pow_self
    rw [zero_mul, zero_add]
    exact Nat.mul_ne_zero (by omega) (by omega)
  rw [show (0 * (k + 1) + 0) * S = 0 by simp, pow_zero]
  omega

theorem combCoef_ne_zero {T S : ℕ} (hT : 1 ≤ T) (hS : 1 ≤ S) (h : (T - 1) * S ≤ 254) (b i : ℕ) :
    combCoef T S b i ≠ 0 := by
  intro e
  have hle := spread_le T S 0 i
  have hodd := mask_odd hT hS
  have hlt : spread T S 0 (2 ^ T - 1) < n := by
    have h1 : spread T S 0 (2 ^ T - 1) < 2 ^ 255 := by
      rw [spread_full]
      obtain ⟨k, rfl⟩ : ∃ k, T = k + 1 := ⟨T - 1, by omega⟩
      rw [Nat.add_sub_cancel] at h
      simp only [zero_mul, zero_add]
      rw [Finset.sum_range_succ]
      have h1 := sum_pow_lt hS k
      have h2 : 2 ^ (k * S) ≤ 2 ^ 254 := Nat.pow_le_pow_right (by norm_num) h
      have h3 : 2 ^ 254 + 2 ^ 254 = 2 ^ 255 := by norm_num
      omega
    exact lt_trans h1 (by decide +kernel)
  unfold combCoef at e
  rw [spread_shift T S b i, spread_shift T S b (2 ^ T - 1)] at e
  generalize spread T S 0 i = s at *
  generalize spread T S 0 (2 ^ T - 1) = m at *
  have h2 := two_mul_inv_fn
  have hp : (2 : Fn) ^ (b * T * S) ≠ 0 := by
    apply pow_ne_zero
    intro h0
    rw [h0, zero_mul] at h2
    exact zero_ne_one h2
  have e2 : (2 : Fn) ^ (b * T * S) * (2 * (s : Fn) - m) = 0 := by
    push_cast at e
    linear_combination 2 * e + (2 : Fn) ^ (b * T * S) * m * h2
  have e3 : ((2 * (s : ℤ) - m : ℤ) : Fn) = 0 := by
    push_cast
    exact (mul_eq_zero.1 e2).resolve_left hp
  rw [ZMod.intCast_zmod_eq_zero_iff_dvd] at e3
  have h0 : (2 * (s : ℤ) - m) = 0 := by
    apply Int.eq_zero_of_abs_lt_dvd e3
    rw [abs_lt]
    constructor <;> omega
  omega

theorem tableRows_getD (tab : List (ℕ × ℕ)) {B m b i : ℕ} (hb : b < B) (hi : i < m) :
    ((tableRows tab B m).getD b []).getD i (0, 0) = tab.getD (b * m + i) (0, 0) := by
  unfold tableRows
  rw [List.getD_eq_getElem?_getD, List.getD_eq_getElem?_getD, List.getElem?_map,
    List.getElem?_range hb, Option.map_some, Option.getD_some, List.getElem?_map,
    List.getElem?_range hi, Option.map_some, Option.getD_some]

theorem genTableRows_eq (B T : ℕ) : genTableRows B T =
    tableRows (ecmultGenComputeTable geConstG B T (1 + (256 - 1) / (B * T))) B (2 ^ (T - 1)) := by
  rw [genTableRows, Nat.shiftLeft_eq, one_mul]

theorem genTableRows_getD {B T b i : ℕ} (hb : b < B) (hi : i < 2 ^ (T - 1)) :
    ((genTableRows B T).getD b []).getD i (0, 0) =
      (ecmultGenComputeTable geConstG B T (1 + (256 - 1) / (B * T))).getD (b * 2 ^ (T - 1) + i) (0, 0) := by
  rw [genTableRows_eq, tableRows_getD _ hb hi]

theorem spacing_bound {B T : ℕ} (hB : 1 ≤ B) (hT : 1 ≤ T) (h8 : T ≤ 8) :
    (T - 1) * (1 + (256 - 1) / (B * T)) ≤ 254 := by
  have h : (256 - 1) / (B * T) ≤ (256 - 1) / T :=
    Nat.div_le_div_left (Nat.le_mul_of_pos_left T hB) hT
  have h2 : (T - 1) * (1 + (256 - 1) / (B * T)) ≤ (T - 1) * (1 + (256 - 1) / T) :=
    Nat.mul_le_mul_left _ (by omega)
  refine le_trans h2 ?_
  interval_cases T <;> norm_num

theorem combOf_entry {B T : ℕ} (hB : 1 ≤ B) (hT : 1 ≤ T) (h8 : T ≤ 8) {b i : ℕ} (hb : b < B)
    (hi : i < 2 ^ (T - 1)) :
    AffineOf ((combOf B T).table b i) (combCoef T (combOf B T).spacing b i • G) := by
  have e : (combOf B T).table b i = ((genTableRows B T).getD b []).getD i (0, 0) := by
    rw [CombCfg.table, combOf]
  have es : (combOf B T).spacing = 1 + (256 - 1) / (B * T) := by rw [CombCfg.spacing, combOf]
  rw [e, es, genTableRows_getD hb hi]
  have hS : 1 ≤ 1 + (256 - 1) / (B * T) := Nat.le_add_right _ _
  refine ecmultGenComputeTable_rep hS hT geConstG_rep hb hi ?_
  rw [Ne, smul_eq_zero_iff, not_or]
  exact ⟨combCoef_ne_zero hT hS (spacing_bound hB hT h8) b i, G_ne_zero⟩

theorem combOf_valid {B T : ℕ} (hB : 1 ≤ B) (hT : 1 ≤ T) (h8 : T ≤ 8) : CombOk (combOf B T) := by
  have e1 : (combOf B T).blocks = B := by rw [combOf]
  have e2 : (combOf B T).teeth = T := by rw [combOf]
  refine ⟨by rw [e1]; exact hB, by rw [e2]; exact hT, by rw [e2]; exact h8, ?_⟩
  intro b hb i hi
  rw [e1] at hb
  rw [CombCfg.points, e2, Nat.shiftLeft_eq, one_mul] at hi
  rw [e2]
  exact (combOf_entry hB hT h8 hb hi).entry

/-! ### The shipped tables -/

/-- `B` rows of `m` entries with coordinates below `p`. -/
def rowsOk (ll : List (List (ℕ × ℕ))) (B m : ℕ) : Bool :=
  Nat.beq ll.length B && ll.all fun l => Nat.beq l.length m &&
    l.all fun s => Nat.blt s.1 p && Nat.blt s.2 p

theorem rows_eq {B T : ℕ} (hB : 1 ≤ B) (hT : 1 ≤ T) (h8 : T ≤ 8) {ll : List (List (ℕ × ℕ))}
    (h : rowsOk ll B (2 ^ (T - 1)) = true) (ht : CombTableOk ⟨B, T, ll⟩) :
    (⟨B, T, ll⟩ : CombCfg) = combOf B T := by
  rw [rowsOk, Bool.and_eq_true, Nat.beq_eq] at h
  obtain ⟨hl, hr⟩ := h
  have hlen : (genTableRows B T).length = B := by
    rw [genTableRows_eq, tableRows, List.length_map, List.length_range]
  have hrow : ∀ b < B, ((genTableRows B T).getD b []).length = 2 ^ (T - 1) := by
    intro b hb
    rw [genTableRows_eq, tableRows, List.getD_eq_getElem?_getD, List.getElem?_map,
      List.getElem?_range hb, Option.map_some, Option.getD_some, List.length_map, List.length_range]
  have hent : ∀ b < B, ∀ i < 2 ^ (T - 1),
      ((genTableRows B T).getD b []).getD i (0, 0) = (ll.getD b []).getD i (0, 0) := by
    intro b hb i hi
    have h1 := combOf_entry hB hT h8 hb hi
    have e : (combOf B T).table b i = ((genTableRows B T).getD b []).getD i (0, 0) := by
      rw [CombCfg.table, combOf]
    have es : (combOf B T).spacing = CombCfg.spacing ⟨B, T, ll⟩ := by
      rw [CombCfg.spacing, CombCfg.spacing, combOf]
    rw [e, es] at h1
    have h2 := ht b hb i (by rw [CombCfg.points, Nat.shiftLeft_eq, one_mul]; exact hi)
    rw [CombCfg.table] at h2
    dsimp only at h2
    have hb' : b < ll.length := by omega
    have h3 := List.all_eq_true.1 hr ll[b] (List.getElem_mem hb')
    rw [Bool.and_eq_true, Nat.beq_eq] at h3
    have hi' : i < ll[b].length := by omega
    have h4 := List.all_eq_true.1 h3.2 ll[b][i] (List.getElem_mem hi')
    rw [Bool.and_eq_true, Nat.blt_eq, Nat.blt_eq] at h4
    have e4 : (ll.getD b []).getD i (0, 0) = ll[b][i] := by
      rw [List.getD_eq_getElem ll [] hb', List.getD_eq_getElem _ (0, 0) hi']
    rw [← e4] at h4
    exact h1.unique (.of_entry h2 h4.1 h4.2)
  rw [combOf]
  congr 1
  apply List.ext_getElem
  · rw [hl, hlen]
  · intro b h1 h2
    have hb : b < B := by omega
    rw [← List.getD_eq_getElem ll [] h1, ← List.getD_eq_getElem (genTableRows B T) [] h2]
    have hll : (ll.getD b []).length = 2 ^ (T - 1) := by
      have h3 := List.all_eq_true.1 hr ll[b] (List.getElem_mem h1)
      rw [Bool.and_eq_true, Nat.beq_eq] at h3
      rw [List.getD_eq_getElem ll [] h1]; exact h3.1
    apply List.ext_getElem
    · rw [hll, hrow b hb]
    · intro i g1 g2
      rw [← List.getD_eq_getElem _ (0, 0) g1, ← List.getD_eq_getElem _ (0, 0) g2]
      exact (hent b hb i (by omega)).symm

theorem comb2_computed : comb2 = combOf 2 5 :=
  rows_eq (by norm_num) (by norm_num) (by norm_num) (ll := PreGen.c2_5) (by decide +kernel)
    comb2_valid.table
theorem comb22_computed : comb22 = combOf 11 6 :=
  rows_eq (by norm_num) (by norm_num) (by norm_num) (ll := PreGen.c11_6) (by decide +kernel)
    comb22_valid.table
theorem comb86_computed : comb86 = combOf 43 6 :=
  rows_eq (by norm_num) (by norm_num) (by norm_num) (ll := PreGen.c43_6) (by decide +kernel)
    comb86_valid.table

/-- Pieces of 64 entries with coordinates below `p`. -/
theorem pieces_lt {ll : List (List (ℕ × ℕ))} {B : ℕ} (h : rowsOk ll B 64 = true) {i : ℕ}
    (hi : i < B * 64) : ((ll.getD (i / 64) []).getD (i % 64) (0, 0)).1 < p ∧
      ((ll.getD (i / 64) []).getD (i % 64) (0, 0)).2 < p := by
  rw [rowsOk, Bool.and_eq_true, Nat.beq_eq] at h
  obtain ⟨hl, hr⟩ := h
  have hb : i / 64 < ll.length := by omega
  have h3 := List.all_eq_true.1 hr ll[i / 64] (List.getElem_mem hb)
  rw [Bool.and_eq_true, Nat.beq_eq] at h3
  have hi' : i % 64 < ll[i / 64].length := by omega
  have h4 := List.all_eq_true.1 h3.2 ll[i / 64][i % 64] (List.getElem_mem hi')
  rw [Bool.and_eq_true, Nat.blt_eq, Nat.blt_eq] at h4
  rw [List.getD_eq_getElem ll [] hb, List.getD_eq_getElem _ (0, 0) hi']
  exact h4

theorem preG_affine {i : ℕ} (hi : i < 8192) : AffineOf (preG i) ((2 * i + 1) • G) := by
  have h := pieces_lt (ll := preGData) (B := 128) (by decide +kernel) (i := i) (by omega)
  exact .of_entry (preG_entry i hi) h.1 h.2

theorem preG128_affine {i : ℕ} (hi : i < 8192) : AffineOf (preG128 i) ((2 * i + 1) • 2 ^ 128 • G) := by
  have h := pieces_lt (ll := preG128Data) (B := 128) (by decide +kernel) (i := i) (by omega)
  exact .of_entry (preG128_entry i hi) h.1 h.2

theorem table_eq {l : List (ℕ × ℕ)} {f : ℕ → ℕ × ℕ} {m : ℕ} (hl : l.length = m)
    (h : ∀ j < m, l.getD j (0, 0) = f j) : l = (List.range m).map f := by
  apply List.ext_getElem
  · simp [hl]
  · intro i h1 h2
    rw [← List.getD_eq_getElem _ (0, 0) h1, h i (by omega)]
    simp

/-! ### The configurations of a build -/

theorem combOf_stored {B T : ℕ} : CombStored (combOf B T) := by
  intro b i
  have key : ∀ q : ℕ × ℕ, q ∈ ecmultGenComputeTable geConstG B T (1 + (256 - 1) / (B * T)) →
      q.1 < p ∧ q.2 < p := by
    intro q hq
    rw [ecmultGenComputeTable] at hq
    obtain ⟨a, _, rfl⟩ := List.mem_map.1 hq
    exact ⟨ZMod.val_lt _, ZMod.val_lt _⟩
  have h0 : Stored (0, 0) := ⟨by norm_num, by norm_num⟩
  have hS : ∀ q : ℕ × ℕ, q.1 < p ∧ q.2 < p → Stored q := fun q h =>
    ⟨lt_trans h.1 (by decide +kernel), lt_trans h.2 (by decide +kernel)⟩
  have hd : ∀ k, Stored ((ecmultGenComputeTable geConstG B T (1 + (256 - 1) / (B * T))).getD k (0, 0)) := by
    intro k
    generalize ecmultGenComputeTable geConstG B T (1 + (256 - 1) / (B * T)) = tab at key ⊢
    rw [List.getD_eq_getElem?_getD]
    cases e : tab[k]? with
    | none => exact h0
    | some q => exact hS q (key q (List.mem_of_getElem? e))
  have e : (combOf B T).table b i = ((genTableRows B T).getD b []).getD i (0, 0) := by
    rw [CombCfg.table, combOf]
  rw [e]
  rw [genTableRows_eq, tableRows]
  generalize ecmultGenComputeTable geConstG B T (1 + (256 - 1) / (B * T)) = tab at hd ⊢
  rw [List.getD_eq_getElem?_getD, List.getD_eq_getElem?_getD, List.getElem?_map]
  cases (List.range B)[b]? with
  | none => simpa using h0
  | some outer =>
    rw [Option.map_some, Option.getD_some, List.getElem?_map]
    cases (List.range (2 ^ (T - 1)))[i]? with
    | none => exact h0
    | some inner => exact hd _

theorem Model.CombCfg.Build.valid {c : CombCfg} (h : c.Build) : CombOk c := by
  obtain rfl | rfl | rfl | ⟨ha, he⟩ := h
  · exact comb2_valid
  · exact comb22_valid
  · exact comb86_valid
  · rw [he]; exact combOf_valid ha.1.1 ha.2.1.1 ha.2.1.2

theorem Model.CombCfg.Build.stored {c : CombCfg} (h : c.Build) : CombStored c := by
  obtain rfl | rfl | rfl | ⟨ha, he⟩ := h
  · exact comb2_stored
  · exact comb22_stored
  · exact comb86_stored
  · rw [he]; exact combOf_stored

end Secp
