import Verif.Spec.ScalarLimbs8
import Verif.Proof.Scalar4x64Bytes

/-!
# Helper lemmas: 32-bit limbs of scalars
-/

namespace Secp
open Model

theorem land_m32' (x : ℕ) : x &&& 0xFFFFFFFF = x % 2 ^ 32 := Nat.and_two_pow_sub_one_eq_mod x 32
theorem land_1f (x : ℕ) : x &&& 0x1F = x % 2 ^ 5 := Nat.and_two_pow_sub_one_eq_mod x 5
theorem s8NC0_eq : s8NC0 = 0x2FC9BEBF := by decide
theorem s8NC1_eq : s8NC1 = 0x402DA173 := by decide
theorem s8NC2_eq : s8NC2 = 0x50B75FC4 := by decide
theorem s8NC3_eq : s8NC3 = 0x45512319 := by decide

namespace Model.Acc32

/-- The number an accumulator stands for. -/
def val (c : Acc32) : ℕ := c.c0 + c.c1 * 2 ^ 32 + c.c2 * 2 ^ 64

/-- The two low words fit. -/
structure Ok (c : Acc32) (k : ℕ) : Prop where
  c0 : c.c0 < 2 ^ 32
  c1 : c.c1 < 2 ^ 32
  c2 : c.c2 ≤ k

theorem prod_le {a b : ℕ} (ha : a < 2 ^ 32) (hb : b < 2 ^ 32) :
    a * b ≤ 18446744065119617025 := le_trans (Nat.mul_le_mul (show a ≤ 4294967295 by omega)
      (show b ≤ 4294967295 by omega)) (by decide)

theorem muladd_spec {c : Acc32} {k a b : ℕ} (hc : c.Ok k) (ha : a < 2 ^ 32) (hb : b < 2 ^ 32)
    (hw : k + 1 < 2 ^ 32) :
    (c.muladd a b).Ok (k + 1) ∧ (c.muladd a b).val = c.val + a * b := by
  obtain ⟨h0, h1, h2⟩ := hc
  have hp := prod_le ha hb
  obtain ⟨q, hq⟩ : ∃ q, q = a * b := ⟨_, rfl⟩
  unfold muladd val u64 u32
  simp only [Nat.shiftRight_eq_div_pow, ← hq, bit_eq, decide_eq_true_eq]
  rw [← hq] at hp
  have hq2 : q % 2 ^ 64 = q := Nat.mod_eq_of_lt (by omega)
  rw [hq2]
  clear hq hq2
  obtain ⟨x0, e0⟩ : ∃ x, x = (c.c0 + q % 2 ^ 32) % 2 ^ 32 := ⟨_, rfl⟩
  rw [← e0]
  obtain ⟨th, et⟩ : ∃ x, x = (q / 2 ^ 32 % 2 ^ 32 + if x0 < q % 2 ^ 32 then 1 else 0) % 2 ^ 32 :=
    ⟨_, rfl⟩
  rw [← et]
  obtain ⟨x1, e1⟩ : ∃ x, x = (c.c1 + th) % 2 ^ 32 := ⟨_, rfl⟩
  rw [← e1]
  have hth : th = q / 2 ^ 32 + if x0 < q % 2 ^ 32 then 1 else 0 := by
    split_ifs at et ⊢ <;> omega
  clear et
  have hk : ∀ x, x ≤ 1 → (c.c2 + x) % 2 ^ 32 = c.c2 + x := fun x hx =>
    Nat.mod_eq_of_lt (by omega)
  have hs1 : (if x1 < th then 1 else 0) ≤ 1 := by split_ifs <;> omega
  rw [hk _ hs1]
  refine ⟨⟨by dsimp only; omega, by dsimp only; omega, by dsimp only; omega⟩, ?_⟩
  split_ifs at * <;> omega

theorem muladdFast_spec {c : Acc32} {k a b : ℕ} (hc : c.Ok k) (ha : a < 2 ^ 32) (hb : b < 2 ^ 32)
    (hw : c.c0 + c.c1 * 2 ^ 32 + a * b < 2 ^ 64) :
    (c.muladdFast a b).Ok k ∧ (c.muladdFast a b).val = c.val + a * b := by
  obtain ⟨h0, h1, h2⟩ := hc
  have hp := prod_le ha hb
  obtain ⟨q, hq⟩ : ∃ q, q = a * b := ⟨_, rfl⟩
  unfold muladdFast val u64 u32
  simp only [Nat.shiftRight_eq_div_pow, ← hq, bit_eq, decide_eq_true_eq]
  rw [← hq] at hp hw
  have hq2 : q % 2 ^ 64 = q := Nat.mod_eq_of_lt (by omega)
  rw [hq2]
  clear hq hq2
  obtain ⟨x0, e0⟩ : ∃ x, x = (c.c0 + q % 2 ^ 32) % 2 ^ 32 := ⟨_, rfl⟩
  rw [← e0]
  obtain ⟨th, et⟩ : ∃ x, x = (q / 2 ^ 32 % 2 ^ 32 + if x0 < q % 2 ^ 32 then 1 else 0) % 2 ^ 32 :=
    ⟨_, rfl⟩
  rw [← et]
  have hth : th = q / 2 ^ 32 + if x0 < q % 2 ^ 32 then 1 else 0 := by
    split_ifs at et ⊢ <;> omega
  clear et
  refine ⟨⟨by dsimp only; omega, by dsimp only; omega, h2⟩, ?_⟩
  split_ifs at * <;> omega

theorem sumadd_spec {c : Acc32} {k a : ℕ} (hc : c.Ok k) (ha : a < 2 ^ 32) (hw : k + 1 < 2 ^ 32) :
    (c.sumadd a).Ok (k + 1) ∧ (c.sumadd a).val = c.val + a := by
  obtain ⟨h0, h1, h2⟩ := hc
  unfold sumadd val u32
  simp only [bit_eq, decide_eq_true_eq]
  obtain ⟨x0, e0⟩ : ∃ x, x = (c.c0 + a) % 2 ^ 32 := ⟨_, rfl⟩
  rw [← e0]
  obtain ⟨o, eo⟩ : ∃ x, x = (if x0 < a then 1 else 0) := ⟨_, rfl⟩
  rw [← eo]
  have ho : o ≤ 1 := by rw [eo]; split_ifs <;> omega
  obtain ⟨x1, e1⟩ : ∃ x, x = (c.c1 + o) % 2 ^ 32 := ⟨_, rfl⟩
  rw [← e1]
  have hk : ∀ x, x ≤ 1 → (c.c2 + x) % 2 ^ 32 = c.c2 + x := fun x hx =>
    Nat.mod_eq_of_lt (by omega)
  have hs1 : (if x1 < o then 1 else 0) ≤ 1 := by split_ifs <;> omega
  rw [hk _ hs1]
  refine ⟨⟨by dsimp only; omega, by dsimp only; omega, by dsimp only; omega⟩, ?_⟩
  split_ifs at * <;> omega

theorem sumaddFast_spec {c : Acc32} {k a : ℕ} (hc : c.Ok k) (ha : a < 2 ^ 32)
    (hw : c.c0 + c.c1 * 2 ^ 32 + a < 2 ^ 64) :
    (c.sumaddFast a).Ok k ∧ (c.sumaddFast a).val = c.val + a := by
  obtain ⟨h0, h1, h2⟩ := hc
  unfold sumaddFast val u32
  simp only [bit_eq, decide_eq_true_eq]
  obtain ⟨x0, e0⟩ : ∃ x, x = (c.c0 + a) % 2 ^ 32 := ⟨_, rfl⟩
  rw [← e0]
  refine ⟨⟨by dsimp only; omega, by dsimp only; omega, h2⟩, ?_⟩
  split_ifs at * <;> omega

theorem extract_spec {c : Acc32} {k : ℕ} (hc : c.Ok k) (hk : k < 2 ^ 32) :
    c.extract.Ok 0 ∧ c.val = c.c0 + 2 ^ 32 * c.extract.val := by
  obtain ⟨h0, h1, h2⟩ := hc
  unfold extract val
  refine ⟨⟨h1, by dsimp only; omega, le_refl _⟩, ?_⟩
  dsimp only
  omega

theorem extractFast_spec {c : Acc32} (hc : c.Ok 0) :
    c.extractFast.Ok 0 ∧ c.val = c.c0 + 2 ^ 32 * c.extractFast.val ∧ c.extractFast.c1 = 0 := by
  obtain ⟨h0, h1, h2⟩ := hc
  unfold extractFast val
  refine ⟨⟨h1, by dsimp only; omega, h2⟩, ?_, rfl⟩
  dsimp only
  omega

theorem val_of_ok {c : Acc32} (hc : c.Ok 0) : c.val = c.c0 + c.c1 * 2 ^ 32 := by
  have := hc.c2
  unfold val
  omega

/-- The sum of the products of a column. -/
def prods : List (ℕ × ℕ) → ℕ
  | [] => 0
  | p :: ps => p.1 * p.2 + prods ps

theorem muladds_spec (ps : List (ℕ × ℕ)) : ∀ {c : Acc32} {k : ℕ}, c.Ok k →
    (∀ p ∈ ps, p.1 < 2 ^ 32 ∧ p.2 < 2 ^ 32) → k + ps.length < 2 ^ 32 →
    (c.muladds ps).Ok (k + ps.length) ∧ (c.muladds ps).val = c.val + prods ps := by
  induction ps with
  | nil =>
    intro c k hc _ _
    have e : c.muladds [] = c := rfl
    rw [e, prods, List.length_nil, Nat.add_zero, Nat.add_zero]
    exact ⟨hc, Eq.refl _⟩
  | cons p ps ih =>
    intro c k hc hp hl
    rw [List.length_cons] at hl
    obtain ⟨h1, h2⟩ := hp p List.mem_cons_self
    obtain ⟨o, v⟩ := muladd_spec hc h1 h2 (by omega)
    obtain ⟨o', v'⟩ := ih o (fun q hq => hp q (List.mem_cons_of_mem _ hq)) (by omega)
    refine ⟨?_, ?_⟩
    · rw [List.length_cons, show k + (ps.length + 1) = k + 1 + ps.length by omega]
      exact o'
    · have e : c.muladds (p :: ps) = (c.muladd p.1 p.2).muladds ps := rfl
      rw [e, v', v, prods]
      omega

theorem prods_le (ps : List (ℕ × ℕ)) (hp : ∀ p ∈ ps, p.1 < 2 ^ 32 ∧ p.2 < 2 ^ 32) :
    prods ps ≤ ps.length * 18446744065119617025 := by
  induction ps with
  | nil => exact Nat.zero_le _
  | cons p ps ih =>
    have h := hp p List.mem_cons_self
    have := prod_le h.1 h.2
    have := ih fun q hq => hp q (List.mem_cons_of_mem _ hq)
    rw [prods, List.length_cons]
    omega

/-- A column of products. -/
theorem col_spec (ps : List (ℕ × ℕ)) {c : Acc32} {B : ℕ} (hc : c.Ok 0) (hB : c.val ≤ B)
    (hp : ∀ p ∈ ps, p.1 < 2 ^ 32 ∧ p.2 < 2 ^ 32) (hl : ps.length < 2 ^ 32) :
    (c.muladds ps).extract.Ok 0 ∧ (c.muladds ps).c0 < 2 ^ 32 ∧
      c.val + prods ps = (c.muladds ps).c0 + 2 ^ 32 * (c.muladds ps).extract.val ∧
      (c.muladds ps).extract.val ≤ (B + ps.length * 18446744065119617025) / 2 ^ 32 := by
  obtain ⟨o, v⟩ := muladds_spec ps hc hp (by omega)
  obtain ⟨o', v'⟩ := extract_spec o (by omega)
  have h := prods_le ps hp
  have e : c.val + prods ps = (c.muladds ps).c0 + 2 ^ 32 * (c.muladds ps).extract.val := by
    rw [← v', v]
  refine ⟨o', o.c0, e, ?_⟩
  rw [Nat.le_div_iff_mul_le (by decide)]
  omega

/-- One more column. -/
theorem horner {c s l d S L : ℕ} (h : c + s = l + 2 ^ 32 * d) (h' : d + S = L) :
    c + (s + 2 ^ 32 * S) = l + 2 ^ 32 * L := by omega

end Model.Acc32

namespace Model.Sc8
open Acc32

theorem n_lit : n = 115792089237316195423570985008687907852837564279074904382605163141518161494337 :=
  Sc4.n_lit

/-- One more word of a comparison. -/
theorem cmp_step {no yes : Bool} {H M d N : ℕ} (hd : d < 2 ^ 32) (hN : N < 2 ^ 32)
    (h1 : no = true ↔ H < M) (h2 : yes = true ↔ M < H) :
    ((no || (decide (d < N) && !yes)) = true ↔ d + 2 ^ 32 * H < N + 2 ^ 32 * M) ∧
    ((yes || (decide (d > N) && !(no || (decide (d < N) && !yes)))) = true ↔
      N + 2 ^ 32 * M < d + 2 ^ 32 * H) := by
  cases no <;> cases yes <;> simp at h1 h2 ⊢ <;> constructor <;> omega

/-- One more word that cannot be larger. -/
theorem cmp_top {no : Bool} {H M d : ℕ} (hd : d < 2 ^ 32) (h1 : no = true ↔ H < M)
    (h2 : false = true ↔ M < H) :
    ((no || decide (d < 0xFFFFFFFF)) = true ↔ d + 2 ^ 32 * H < 0xFFFFFFFF + 2 ^ 32 * M) ∧
    (false = true ↔ 0xFFFFFFFF + 2 ^ 32 * M < d + 2 ^ 32 * H) := by
  cases no <;> simp at h1 h2 ⊢ <;> omega

/-- One more word that cannot be larger, when the comparison may be decided. -/
theorem cmp_top' {no yes : Bool} {H M d : ℕ} (hd : d < 2 ^ 32) (h1 : no = true ↔ H < M)
    (h2 : yes = true ↔ M < H) :
    ((no || (decide (d < 0xFFFFFFFF) && !yes)) = true ↔ d + 2 ^ 32 * H < 0xFFFFFFFF + 2 ^ 32 * M) ∧
    (yes = true ↔ 0xFFFFFFFF + 2 ^ 32 * M < d + 2 ^ 32 * H) := by
  cases no <;> cases yes <;> simp at h1 h2 ⊢ <;> omega

/-- The last word, where equality counts as larger. -/
theorem cmp_last {no yes : Bool} {H M d N : ℕ} (hd : d < 2 ^ 32) (hN : N < 2 ^ 32)
    (h1 : no = true ↔ H < M) (h2 : yes = true ↔ M < H) :
    (yes || (decide (d ≥ N) && !no)) = true ↔ N + 2 ^ 32 * M ≤ d + 2 ^ 32 * H := by
  cases no <;> cases yes <;> simp at h1 h2 ⊢ <;> omega

theorem nat_horner (a : Sc8) : a.nat = a.d0 + 2 ^ 32 * (a.d1 + 2 ^ 32 * (a.d2 + 2 ^ 32 *
    (a.d3 + 2 ^ 32 * (a.d4 + 2 ^ 32 * (a.d5 + 2 ^ 32 * (a.d6 + 2 ^ 32 * (a.d7 + 2 ^ 32 * 0))))))) := by
  unfold nat
  omega

theorem checkOverflow_iff {a : Sc8} (ha : a.Words) : a.checkOverflow = true ↔ n ≤ a.nat := by
  obtain ⟨h0, h1, h2, h3, h4, h5, h6, h7⟩ := ha
  rw [nat_horner]
  have c7 := cmp_top (no := false) (H := 0) (M := 0) h7 (by simp) (by simp)
  have c6 := cmp_top h6 c7.1 c7.2
  have c5 := cmp_top h5 c6.1 c6.2
  have hnf : ∀ x : Bool, (x && !false) = x := by simp
  have c4 := cmp_step (N := s8N4) h4 (by decide) c5.1 c5.2
  rw [hnf] at c4
  have c3 := cmp_step (N := s8N3) h3 (by decide) c4.1 c4.2
  have c2 := cmp_step (N := s8N2) h2 (by decide) c3.1 c3.2
  have c1 := cmp_step (N := s8N1) h1 (by decide) c2.1 c2.2
  have key : a.checkOverflow = true ↔ s8N0 + 2 ^ 32 * (s8N1 + 2 ^ 32 * (s8N2 + 2 ^ 32 *
    (s8N3 + 2 ^ 32 * (s8N4 + 2 ^ 32 * (0xFFFFFFFF + 2 ^ 32 * (0xFFFFFFFF + 2 ^ 32 *
    (0xFFFFFFFF + 2 ^ 32 * 0))))))) ≤ a.d0 + 2 ^ 32 * (a.d1 + 2 ^ 32 * (a.d2 + 2 ^ 32 *
    (a.d3 + 2 ^ 32 * (a.d4 + 2 ^ 32 * (a.d5 + 2 ^ 32 * (a.d6 + 2 ^ 32 * (a.d7 + 2 ^ 32 * 0))))))) := by
    unfold checkOverflow
    dsimp only
    rw [show s8N7 = 0xFFFFFFFF from rfl, show s8N6 = 0xFFFFFFFF from rfl,
      show s8N5 = 0xFFFFFFFF from rfl]
    exact cmp_last h0 (by decide) c1.1 c1.2
  rw [key]
  have : s8N0 + 2 ^ 32 * (s8N1 + 2 ^ 32 * (s8N2 + 2 ^ 32 *
    (s8N3 + 2 ^ 32 * (s8N4 + 2 ^ 32 * (0xFFFFFFFF + 2 ^ 32 * (0xFFFFFFFF + 2 ^ 32 *
    (0xFFFFFFFF + 2 ^ 32 * 0))))))) = n := by rw [n_lit]; decide
  rw [this]

theorem Words.lt {a : Sc8} (ha : a.Words) : a.nat < 2 ^ 256 := by
  obtain ⟨h0, h1, h2, h3, h4, h5, h6, h7⟩ := ha
  unfold nat
  omega

theorem chain_spec {x0 x1 x2 x3 x4 x5 x6 x7 : ℕ} (h0 : x0 < 2 ^ 63) (h1 : x1 < 2 ^ 63)
    (h2 : x2 < 2 ^ 63) (h3 : x3 < 2 ^ 63) (h4 : x4 < 2 ^ 63) (h5 : x5 < 2 ^ 63) (h6 : x6 < 2 ^ 63)
    (h7 : x7 < 2 ^ 63) :
    (chain 0xFFFFFFFF x0 x1 x2 x3 x4 x5 x6 x7).1.Words ∧
    (chain 0xFFFFFFFF x0 x1 x2 x3 x4 x5 x6 x7).1.nat +
      (chain 0xFFFFFFFF x0 x1 x2 x3 x4 x5 x6 x7).2 * 2 ^ 256 =
      x0 + x1 * 2 ^ 32 + x2 * 2 ^ 64 + x3 * 2 ^ 96 + x4 * 2 ^ 128 + x5 * 2 ^ 160 + x6 * 2 ^ 192 +
        x7 * 2 ^ 224 := by
  have st : ∀ t x, x < 2 ^ 63 → t < 2 ^ 64 → u64 (t / 2 ^ 32 + x) = t / 2 ^ 32 + x ∧
      u64 (t / 2 ^ 32 + x) < 2 ^ 64 := by
    intro t x hx ht
    unfold u64
    omega
  unfold chain
  simp only [land_m32', Nat.shiftRight_eq_div_pow]
  obtain ⟨t0, e0⟩ : ∃ t, t = u64 x0 := ⟨_, rfl⟩
  rw [← e0]
  obtain ⟨t1, e1⟩ : ∃ t, t = u64 (t0 / 2 ^ 32 + x1) := ⟨_, rfl⟩
  rw [← e1]
  obtain ⟨t2, e2⟩ : ∃ t, t = u64 (t1 / 2 ^ 32 + x2) := ⟨_, rfl⟩
  rw [← e2]
  obtain ⟨t3, e3⟩ : ∃ t, t = u64 (t2 / 2 ^ 32 + x3) := ⟨_, rfl⟩
  rw [← e3]
  obtain ⟨t4, e4⟩ : ∃ t, t = u64 (t3 / 2 ^ 32 + x4) := ⟨_, rfl⟩
  rw [← e4]
  obtain ⟨t5, e5⟩ : ∃ t, t = u64 (t4 / 2 ^ 32 + x5) := ⟨_, rfl⟩
  rw [← e5]
  obtain ⟨t6, e6⟩ : ∃ t, t = u64 (t5 / 2 ^ 32 + x6) := ⟨_, rfl⟩
  rw [← e6]
  obtain ⟨t7, e7⟩ : ∃ t, t = u64 (t6 / 2 ^ 32 + x7) := ⟨_, rfl⟩
  rw [← e7]
  have f0 : t0 = x0 ∧ t0 < 2 ^ 64 := by rw [e0]; unfold u64; omega
  have f1 := st t0 x1 h1 f0.2
  rw [← e1] at f1
  have f2 := st t1 x2 h2 f1.2
  rw [← e2] at f2
  have f3 := st t2 x3 h3 f2.2
  rw [← e3] at f3
  have f4 := st t3 x4 h4 f3.2
  rw [← e4] at f4
  have f5 := st t4 x5 h5 f4.2
  rw [← e5] at f5
  have f6 := st t5 x6 h6 f5.2
  rw [← e6] at f6
  have f7 := st t6 x7 h7 f6.2
  rw [← e7] at f7
  refine ⟨⟨?_, ?_, ?_, ?_, ?_, ?_, ?_, ?_⟩, ?_⟩ <;> (try exact Nat.mod_lt _ (by decide))
  unfold nat
  dsimp only
  have f0 := f0.1
  have f1 := f1.1
  have f2 := f2.1
  have f3 := f3.1
  have f4 := f4.1
  have f5 := f5.1
  have f6 := f6.1
  have f7 := f7.1
  clear * - f0 f1 f2 f3 f4 f5 f6 f7
  omega

theorem chain_zero (x0 x1 x2 x3 x4 x5 x6 x7 : ℕ) :
    (chain 0 x0 x1 x2 x3 x4 x5 x6 x7).1 = ⟨0, 0, 0, 0, 0, 0, 0, 0⟩ := by
  unfold chain
  simp only [Nat.and_zero]

theorem reduce_spec {r : Sc8} {o : ℕ} (hr : r.Words) (ho : o ≤ 1) :
    (r.reduce o).Words ∧ (r.reduce o).nat = (r.nat + o * (2 ^ 256 - n)) % 2 ^ 256 := by
  obtain ⟨h0, h1, h2, h3, h4, h5, h6, h7⟩ := hr
  rw [n_lit]
  have hu : ∀ x, u32 x < 2 ^ 32 := fun x => Nat.mod_lt _ (by decide)
  have u0 := hu (o * s8NC0)
  have u1 := hu (o * s8NC1)
  have u2 := hu (o * s8NC2)
  have u3 := hu (o * s8NC3)
  have u4 := hu (o * s8NC4)
  obtain ⟨hw, he⟩ := chain_spec (x0 := r.d0 + u32 (o * s8NC0)) (x1 := r.d1 + u32 (o * s8NC1))
    (x2 := r.d2 + u32 (o * s8NC2)) (x3 := r.d3 + u32 (o * s8NC3)) (x4 := r.d4 + u32 (o * s8NC4))
    (x5 := r.d5) (x6 := r.d6) (x7 := r.d7) (by omega) (by omega) (by omega) (by omega) (by omega)
    (by omega) (by omega) (by omega)
  refine ⟨hw, ?_⟩
  have hlt := hw.lt
  unfold reduce
  generalize chain _ _ _ _ _ _ _ _ _ = c at *
  clear u0 u1 u2 u3 u4
  have : o = 0 ∨ o = 1 := by omega
  have e0 : ∀ x, u32 (0 * x) = 0 := by intro x; rw [Nat.zero_mul]; rfl
  have e1 : ∀ x, x < 2 ^ 32 → u32 (1 * x) = x := by
    intro x hx; rw [Nat.one_mul]; exact Nat.mod_eq_of_lt hx
  rcases this with rfl | rfl
  · simp only [e0] at he
    unfold nat at *
    omega
  · rw [e1 _ (by decide), e1 _ (by decide), e1 _ (by decide), e1 _ (by decide),
      e1 _ (by decide), s8NC0_eq, s8NC1_eq, s8NC2_eq, s8NC3_eq, show s8NC4 = 1 from rfl] at he
    unfold nat at *
    omega

/-- Reducing a number below `2 * n` that is given by words and a carry. -/
theorem reduce_final {r : Sc8} {c : ℕ} (hr : r.Words) (h : r.nat + c * 2 ^ 256 < 2 * n) :
    c + bit r.checkOverflow ≤ 1 ∧
    (c + bit r.checkOverflow = 1 ↔ n ≤ r.nat + c * 2 ^ 256) ∧
    (r.reduce (c + bit r.checkOverflow)).Words ∧
    (r.reduce (c + bit r.checkOverflow)).nat = (r.nat + c * 2 ^ 256) % n := by
  have h256 := hr.lt
  have hiff := checkOverflow_iff hr
  have hle : c + bit r.checkOverflow ≤ 1 := by
    rw [bit_eq]
    split_ifs with h1
    · have := hiff.1 h1
      rw [n_lit] at *
      omega
    · rw [n_lit] at *
      omega
  refine ⟨hle, ?_, (reduce_spec hr hle).1, ?_⟩
  · rw [bit_eq]
    split_ifs with h1
    · have := hiff.1 h1
      rw [n_lit] at *
      omega
    · have := mt hiff.2 h1
      rw [n_lit] at *
      omega
  rw [(reduce_spec hr hle).2, bit_eq]
  have hc : c = 0 ∨ c = 1 := by omega
  split_ifs with h1
  · have := hiff.1 h1
    rw [n_lit] at *
    rcases hc with rfl | rfl <;> omega
  · have := mt hiff.2 h1
    rw [n_lit] at *
    rcases hc with rfl | rfl <;> omega

end Model.Sc8
end Secp
