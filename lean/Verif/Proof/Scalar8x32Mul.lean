import Verif.Proof.Scalar8x32

/-!
# Helper lemmas: products of scalars on 32-bit limbs
-/

namespace Secp
open Model

namespace Model.Acc32

theorem Ok.val_lt {c : Acc32} (h : c.Ok 0) : c.val < 2 ^ 64 := by
  obtain ⟨h0, h1, h2⟩ := h
  unfold val
  omega

theorem val_init (x : ℕ) : (Acc32.mk x 0 0).val = x := by
  unfold val
  simp

theorem ok_init {x : ℕ} (hx : x < 2 ^ 32) : (Acc32.mk x 0 0).Ok 0 :=
  ⟨hx, Nat.two_pow_pos 32, le_refl _⟩

theorem prods_leK {ps : List (ℕ × ℕ)} (hp : ∀ p ∈ ps, p.1 < 2 ^ 32 ∧ p.2 < 2 ^ 32) {k : ℕ}
    (hk : ps.length ≤ k) : prods ps ≤ k * 18446744065119617025 :=
  le_trans (prods_le ps hp) (Nat.mul_le_mul_right _ hk)

theorem horner_last {v c : ℕ} (h : v = c + 0 * 2 ^ 32) : v + 0 = c + 2 ^ 32 * 0 := by omega

theorem Ok.mono {c : Acc32} {j k : ℕ} (h : c.Ok j) (hk : j ≤ k) : c.Ok k :=
  ⟨h.c0, h.c1, le_trans h.c2 hk⟩

/-- A column of the sum `S`: from the accumulator `c` the code gets to `d`, whose low word is the
result, and on to `e`. -/
structure Col (c d e : Acc32) (S : ℕ) : Prop where
  ok : e.Ok 0
  lt : d.c0 < 2 ^ 32
  eq : c.val + S = d.c0 + 2 ^ 32 * e.val

theorem Col.of {c d : Acc32} {S k : ℕ} (o : d.Ok k) (v : d.val = c.val + S) (hk : k < 2 ^ 32) :
    Col c d d.extract S := by
  obtain ⟨o', v'⟩ := extract_spec o hk
  exact ⟨o', o.c0, by rw [← v', v]⟩

theorem Col.ofFast {c d : Acc32} {S : ℕ} (o : d.Ok 0) (v : d.val = c.val + S) :
    Col c d d.extractFast S ∧ d.extractFast.c1 = 0 := by
  obtain ⟨o', v', z⟩ := extractFast_spec o
  exact ⟨⟨o', o.c0, by rw [← v', v]⟩, z⟩

theorem Col.bound {c d e : Acc32} {S B T : ℕ} (h : Col c d e S) (hB : c.val ≤ B) (hS : S ≤ T) :
    e.val ≤ (B + T) / 2 ^ 32 := by
  have := h.eq
  rw [Nat.le_div_iff_mul_le (by decide)]
  omega

/-- Pairs of words. -/
abbrev WordPairs (ps : List (ℕ × ℕ)) : Prop := ∀ p ∈ ps, p.1 < 2 ^ 32 ∧ p.2 < 2 ^ 32

theorem col_mul (ps : List (ℕ × ℕ)) {c : Acc32} (hc : c.Ok 0) (hp : WordPairs ps)
    (hl : ps.length ≤ 8) : Col c (c.muladds ps) (c.muladds ps).extract (prods ps) := by
  obtain ⟨o, v⟩ := muladds_spec ps hc hp (by omega)
  exact Col.of o v (by omega)

theorem col_sum_mul_sum (x y : ℕ) (ps : List (ℕ × ℕ)) {c : Acc32} (hc : c.Ok 0) (hx : x < 2 ^ 32)
    (hp : WordPairs ps) (hl : ps.length ≤ 8) (hy : y < 2 ^ 32) :
    Col c (((c.sumadd x).muladds ps).sumadd y) (((c.sumadd x).muladds ps).sumadd y).extract
      (x + (prods ps + y)) := by
  obtain ⟨o, v⟩ := sumadd_spec hc hx (by omega)
  obtain ⟨o1, v1⟩ := muladds_spec ps o hp (by omega)
  obtain ⟨o2, v2⟩ := sumadd_spec o1 hy (by omega)
  exact Col.of o2 (by rw [v2, v1, v]; omega) (by omega)

theorem col_sum_mul (x : ℕ) (ps : List (ℕ × ℕ)) {c : Acc32} (hc : c.Ok 0) (hx : x < 2 ^ 32)
    (hp : WordPairs ps) (hl : ps.length ≤ 8) :
    Col c ((c.sumadd x).muladds ps) ((c.sumadd x).muladds ps).extract (x + prods ps) := by
  obtain ⟨o, v⟩ := sumadd_spec hc hx (by omega)
  obtain ⟨o1, v1⟩ := muladds_spec ps o hp (by omega)
  exact Col.of o1 (by rw [v1, v]; omega) (by omega)

theorem col_mul_sum (y : ℕ) (ps : List (ℕ × ℕ)) {c : Acc32} (hc : c.Ok 0)
    (hp : WordPairs ps) (hl : ps.length ≤ 8) (hy : y < 2 ^ 32) :
    Col c ((c.muladds ps).sumadd y) ((c.muladds ps).sumadd y).extract (prods ps + y) := by
  obtain ⟨o1, v1⟩ := muladds_spec ps hc hp (by omega)
  obtain ⟨o2, v2⟩ := sumadd_spec o1 hy (by omega)
  exact Col.of o2 (by rw [v2, v1]; omega) (by omega)

theorem col_fsum_mul (x : ℕ) (ps : List (ℕ × ℕ)) {c : Acc32} (hc : c.Ok 0) (hx : x < 2 ^ 32)
    (hw : c.val + x < 2 ^ 64) (hp : WordPairs ps) (hl : ps.length ≤ 8) :
    Col c ((c.sumaddFast x).muladds ps) ((c.sumaddFast x).muladds ps).extract (x + prods ps) := by
  rw [val_of_ok hc] at hw
  obtain ⟨o, v⟩ := sumaddFast_spec hc hx hw
  obtain ⟨o1, v1⟩ := muladds_spec ps o hp (by omega)
  exact Col.of o1 (by rw [v1, v]; omega) (by omega)

theorem col_fmul (x y : ℕ) {c : Acc32} (hc : c.Ok 0) (hx : x < 2 ^ 32) (hy : y < 2 ^ 32)
    (hw : c.val + x * y < 2 ^ 64) :
    Col c (c.muladdFast x y) (c.muladdFast x y).extractFast (x * y) ∧
      (c.muladdFast x y).extractFast.c1 = 0 := by
  rw [val_of_ok hc] at hw
  obtain ⟨o, v⟩ := muladdFast_spec hc hx hy hw
  exact Col.ofFast o v

theorem col_fsum (x : ℕ) {c : Acc32} (hc : c.Ok 0) (hx : x < 2 ^ 32) (hw : c.val + x < 2 ^ 64) :
    Col c (c.sumaddFast x) (c.sumaddFast x).extractFast x ∧ (c.sumaddFast x).extractFast.c1 = 0 := by
  rw [val_of_ok hc] at hw
  obtain ⟨o, v⟩ := sumaddFast_spec hc hx hw
  exact Col.ofFast o v

theorem col_fsum_fmul_fsum (x y z t : ℕ) {c : Acc32} (hc : c.Ok 0) (hx : x < 2 ^ 32)
    (hy : y < 2 ^ 32) (hz : z < 2 ^ 32) (ht : t < 2 ^ 32) (hw : c.val + x + y * z + t < 2 ^ 64) :
    Col c (((c.sumaddFast x).muladdFast y z).sumaddFast t)
        (((c.sumaddFast x).muladdFast y z).sumaddFast t).extractFast (x + (y * z + t)) ∧
      (((c.sumaddFast x).muladdFast y z).sumaddFast t).extractFast.c1 = 0 := by
  have v0 := val_of_ok hc
  obtain ⟨o, v⟩ := sumaddFast_spec hc hx (by omega)
  have v0 := val_of_ok o
  obtain ⟨o1, v1⟩ := muladdFast_spec o hy hz (by omega)
  have v0 := val_of_ok o1
  obtain ⟨o2, v2⟩ := sumaddFast_spec o1 ht (by omega)
  exact Col.ofFast o2 (by rw [v2, v1, v]; omega)

end Model.Acc32

namespace Model.Sc8
open Acc32

theorem nc_eq : 2 ^ 256 - n = 0x2FC9BEBF + 2 ^ 32 * (0x402DA173 + 2 ^ 32 * (0x50B75FC4 + 2 ^ 32 *
    (0x45512319 + 2 ^ 32 * 1))) := by
  rw [n_lit]
  norm_num

theorem mul512_spec {a b : Sc8} (ha : a.Words) (hb : b.Words) :
    ∃ l0 l1 l2 l3 l4 l5 l6 l7 l8 l9 l10 l11 l12 l13 l14 l15, mul512 a b = [l0, l1, l2, l3, l4, l5, l6, l7, l8, l9, l10, l11, l12, l13, l14, l15] ∧
    l0 < 2 ^ 32 ∧ l1 < 2 ^ 32 ∧ l2 < 2 ^ 32 ∧ l3 < 2 ^ 32 ∧ l4 < 2 ^ 32 ∧ l5 < 2 ^ 32 ∧ l6 < 2 ^ 32 ∧ l7 < 2 ^ 32 ∧ l8 < 2 ^ 32 ∧ l9 < 2 ^ 32 ∧ l10 < 2 ^ 32 ∧ l11 < 2 ^ 32 ∧ l12 < 2 ^ 32 ∧ l13 < 2 ^ 32 ∧ l14 < 2 ^ 32 ∧ l15 < 2 ^ 32 ∧
    words32 [l0, l1, l2, l3, l4, l5, l6, l7, l8, l9, l10, l11, l12, l13, l14, l15] = a.nat * b.nat := by
  obtain ⟨a0, a1, a2, a3, a4, a5, a6, a7⟩ := ha
  obtain ⟨b0, b1, b2, b3, b4, b5, b6, b7⟩ := hb
  unfold mul512
  extract_lets c0 c1 l0 c2 c3 l1 c4 c5 l2 c6 c7 l3 c8 c9 l4 c10 c11 l5 c12 c13 l6 c14 c15 l7 c16 c17 l8 c18 c19 l9 c20 c21 l10 c22 c23 l11 c24 c25 l12 c26 c27 l13 c28 c29 l14 c30 l15
  have k0 : c0.Ok 0 := ok_init (by decide)
  have z0 : c0.val = 0 := val_init 0
  have B0 : c0.val ≤ 0 := z0.le
  have s0 : Col c0 c1 c2 _ := (col_fmul a.d0 b.d0 k0 a0 b0 (by have := prod_le a0 b0; clear * - this B0; omega)).1
  have B1 : c2.val ≤ 4294967294 := le_trans (s0.bound B0 (prod_le a0 b0)) (by decide)
  have k1 := s0.ok
  clear_value c2
  have w1 : WordPairs [(a.d0, b.d1), (a.d1, b.d0)] := by simp only [WordPairs, List.forall_mem_cons, List.not_mem_nil, false_imp_iff, implies_true, and_true]; exact ⟨⟨a0, b1⟩, ⟨a1, b0⟩⟩
  have s1 : Col c2 c3 c4 _ := col_mul [(a.d0, b.d1), (a.d1, b.d0)] k1 w1 (by simp)
  have t1 := prods_leK w1 (k := 2) (by simp)
  have B2 : c4.val ≤ 8589934589 := le_trans (s1.bound B1 t1) (by decide)
  have k2 := s1.ok
  clear_value c4
  have w2 : WordPairs [(a.d0, b.d2), (a.d1, b.d1), (a.d2, b.d0)] := by simp only [WordPairs, List.forall_mem_cons, List.not_mem_nil, false_imp_iff, implies_true, and_true]; exact ⟨⟨a0, b2⟩, ⟨a1, b1⟩, ⟨a2, b0⟩⟩
  have s2 : Col c4 c5 c6 _ := col_mul [(a.d0, b.d2), (a.d1, b.d1), (a.d2, b.d0)] k2 w2 (by simp)
  have t2 := prods_leK w2 (k := 3) (by simp)
  have B3 : c6.val ≤ 12884901884 := le_trans (s2.bound B2 t2) (by decide)
  have k3 := s2.ok
  clear_value c6
  have w3 : WordPairs [(a.d0, b.d3), (a.d1, b.d2), (a.d2, b.d1), (a.d3, b.d0)] := by simp only [WordPairs, List.forall_mem_cons, List.not_mem_nil, false_imp_iff, implies_true, and_true]; exact ⟨⟨a0, b3⟩, ⟨a1, b2⟩, ⟨a2, b1⟩, ⟨a3, b0⟩⟩
  have s3 : Col c6 c7 c8 _ := col_mul [(a.d0, b.d3), (a.d1, b.d2), (a.d2, b.d1), (a.d3, b.d0)] k3 w3 (by simp)
  have t3 := prods_leK w3 (k := 4) (by simp)
  have B4 : c8.val ≤ 17179869179 := le_trans (s3.bound B3 t3) (by decide)
  have k4 := s3.ok
  clear_value c8
  have w4 : WordPairs [(a.d0, b.d4), (a.d1, b.d3), (a.d2, b.d2), (a.d3, b.d1), (a.d4, b.d0)] := by simp only [WordPairs, List.forall_mem_cons, List.not_mem_nil, false_imp_iff, implies_true, and_true]; exact ⟨⟨a0, b4⟩, ⟨a1, b3⟩, ⟨a2, b2⟩, ⟨a3, b1⟩, ⟨a4, b0⟩⟩
  have s4 : Col c8 c9 c10 _ := col_mul [(a.d0, b.d4), (a.d1, b.d3), (a.d2, b.d2), (a.d3, b.d1), (a.d4, b.d0)] k4 w4 (by simp)
  have t4 := prods_leK w4 (k := 5) (by simp)
  have B5 : c10.val ≤ 21474836474 := le_trans (s4.bound B4 t4) (by decide)
  have k5 := s4.ok
  clear_value c10
  have w5 : WordPairs [(a.d0, b.d5), (a.d1, b.d4), (a.d2, b.d3), (a.d3, b.d2), (a.d4, b.d1), (a.d5, b.d0)] := by simp only [WordPairs, List.forall_mem_cons, List.not_mem_nil, false_imp_iff, implies_true, and_true]; exact ⟨⟨a0, b5⟩, ⟨a1, b4⟩, ⟨a2, b3⟩, ⟨a3, b2⟩, ⟨a4, b1⟩, ⟨a5, b0⟩⟩
  have s5 : Col c10 c11 c12 _ := col_mul [(a.d0, b.d5), (a.d1, b.d4), (a.d2, b.d3), (a.d3, b.d2), (a.d4, b.d1), (a.d5, b.d0)] k5 w5 (by simp)
  have t5 := prods_leK w5 (k := 6) (by simp)
  have B6 : c12.val ≤ 25769803769 := le_trans (s5.bound B5 t5) (by decide)
  have k6 := s5.ok
  clear_value c12
  have w6 : WordPairs [(a.d0, b.d6), (a.d1, b.d5), (a.d2, b.d4), (a.d3, b.d3), (a.d4, b.d2), (a.d5, b.d1), (a.d6, b.d0)] := by simp only [WordPairs, List.forall_mem_cons, List.not_mem_nil, false_imp_iff, implies_true, and_true]; exact ⟨⟨a0, b6⟩, ⟨a1, b5⟩, ⟨a2, b4⟩, ⟨a3, b3⟩, ⟨a4, b2⟩, ⟨a5, b1⟩, ⟨a6, b0⟩⟩
  have s6 : Col c12 c13 c14 _ := col_mul [(a.d0, b.d6), (a.d1, b.d5), (a.d2, b.d4), (a.d3, b.d3), (a.d4, b.d2), (a.d5, b.d1), (a.d6, b.d0)] k6 w6 (by simp)
  have t6 := prods_leK w6 (k := 7) (by simp)
  have B7 : c14.val ≤ 30064771064 := le_trans (s6.bound B6 t6) (by decide)
  have k7 := s6.ok
  clear_value c14
  have w7 : WordPairs [(a.d0, b.d7), (a.d1, b.d6), (a.d2, b.d5), (a.d3, b.d4), (a.d4, b.d3), (a.d5, b.d2), (a.d6, b.d1), (a.d7, b.d0)] := by simp only [WordPairs, List.forall_mem_cons, List.not_mem_nil, false_imp_iff, implies_true, and_true]; exact ⟨⟨a0, b7⟩, ⟨a1, b6⟩, ⟨a2, b5⟩, ⟨a3, b4⟩, ⟨a4, b3⟩, ⟨a5, b2⟩, ⟨a6, b1⟩, ⟨a7, b0⟩⟩
  have s7 : Col c14 c15 c16 _ := col_mul [(a.d0, b.d7), (a.d1, b.d6), (a.d2, b.d5), (a.d3, b.d4), (a.d4, b.d3), (a.d5, b.d2), (a.d6, b.d1), (a.d7, b.d0)] k7 w7 (by simp)
  have t7 := prods_leK w7 (k := 8) (by simp)
  have B8 : c16.val ≤ 34359738359 := le_trans (s7.bound B7 t7) (by decide)
  have k8 := s7.ok
  clear_value c16
  have w8 : WordPairs [(a.d1, b.d7), (a.d2, b.d6), (a.d3, b.d5), (a.d4, b.d4), (a.d5, b.d3), (a.d6, b.d2), (a.d7, b.d1)] := by simp only [WordPairs, List.forall_mem_cons, List.not_mem_nil, false_imp_iff, implies_true, and_true]; exact ⟨⟨a1, b7⟩, ⟨a2, b6⟩, ⟨a3, b5⟩, ⟨a4, b4⟩, ⟨a5, b3⟩, ⟨a6, b2⟩, ⟨a7, b1⟩⟩
  have s8 : Col c16 c17 c18 _ := col_mul [(a.d1, b.d7), (a.d2, b.d6), (a.d3, b.d5), (a.d4, b.d4), (a.d5, b.d3), (a.d6, b.d2), (a.d7, b.d1)] k8 w8 (by simp)
  have t8 := prods_leK w8 (k := 7) (by simp)
  have B9 : c18.val ≤ 30064771065 := le_trans (s8.bound B8 t8) (by decide)
  have k9 := s8.ok
  clear_value c18
  have w9 : WordPairs [(a.d2, b.d7), (a.d3, b.d6), (a.d4, b.d5), (a.d5, b.d4), (a.d6, b.d3), (a.d7, b.d2)] := by simp only [WordPairs, List.forall_mem_cons, List.not_mem_nil, false_imp_iff, implies_true, and_true]; exact ⟨⟨a2, b7⟩, ⟨a3, b6⟩, ⟨a4, b5⟩, ⟨a5, b4⟩, ⟨a6, b3⟩, ⟨a7, b2⟩⟩
  have s9 : Col c18 c19 c20 _ := col_mul [(a.d2, b.d7), (a.d3, b.d6), (a.d4, b.d5), (a.d5, b.d4), (a.d6, b.d3), (a.d7, b.d2)] k9 w9 (by simp)
  have t9 := prods_leK w9 (k := 6) (by simp)
  have B10 : c20.val ≤ 25769803770 := le_trans (s9.bound B9 t9) (by decide)
  have k10 := s9.ok
  clear_value c20
  have w10 : WordPairs [(a.d3, b.d7), (a.d4, b.d6), (a.d5, b.d5), (a.d6, b.d4), (a.d7, b.d3)] := by simp only [WordPairs, List.forall_mem_cons, List.not_mem_nil, false_imp_iff, implies_true, and_true]; exact ⟨⟨a3, b7⟩, ⟨a4, b6⟩, ⟨a5, b5⟩, ⟨a6, b4⟩, ⟨a7, b3⟩⟩
  have s10 : Col c20 c21 c22 _ := col_mul [(a.d3, b.d7), (a.d4, b.d6), (a.d5, b.d5), (a.d6, b.d4), (a.d7, b.d3)] k10 w10 (by simp)
  have t10 := prods_leK w10 (k := 5) (by simp)
  have B11 : c22.val ≤ 21474836475 := le_trans (s10.bound B10 t10) (by decide)
  have k11 := s10.ok
  clear_value c22
  have w11 : WordPairs [(a.d4, b.d7), (a.d5, b.d6), (a.d6, b.d5), (a.d7, b.d4)] := by simp only [WordPairs, List.forall_mem_cons, List.not_mem_nil, false_imp_iff, implies_true, and_true]; exact ⟨⟨a4, b7⟩, ⟨a5, b6⟩, ⟨a6, b5⟩, ⟨a7, b4⟩⟩
  have s11 : Col c22 c23 c24 _ := col_mul [(a.d4, b.d7), (a.d5, b.d6), (a.d6, b.d5), (a.d7, b.d4)] k11 w11 (by simp)
  have t11 := prods_leK w11 (k := 4) (by simp)
  have B12 : c24.val ≤ 17179869180 := le_trans (s11.bound B11 t11) (by decide)
  have k12 := s11.ok
  clear_value c24
  have w12 : WordPairs [(a.d5, b.d7), (a.d6, b.d6), (a.d7, b.d5)] := by simp only [WordPairs, List.forall_mem_cons, List.not_mem_nil, false_imp_iff, implies_true, and_true]; exact ⟨⟨a5, b7⟩, ⟨a6, b6⟩, ⟨a7, b5⟩⟩
  have s12 : Col c24 c25 c26 _ := col_mul [(a.d5, b.d7), (a.d6, b.d6), (a.d7, b.d5)] k12 w12 (by simp)
  have t12 := prods_leK w12 (k := 3) (by simp)
  have B13 : c26.val ≤ 12884901885 := le_trans (s12.bound B12 t12) (by decide)
  have k13 := s12.ok
  clear_value c26
  have w13 : WordPairs [(a.d6, b.d7), (a.d7, b.d6)] := by simp only [WordPairs, List.forall_mem_cons, List.not_mem_nil, false_imp_iff, implies_true, and_true]; exact ⟨⟨a6, b7⟩, ⟨a7, b6⟩⟩
  have s13 : Col c26 c27 c28 _ := col_mul [(a.d6, b.d7), (a.d7, b.d6)] k13 w13 (by simp)
  have t13 := prods_leK w13 (k := 2) (by simp)
  have B14 : c28.val ≤ 8589934590 := le_trans (s13.bound B13 t13) (by decide)
  have k14 := s13.ok
  clear_value c28
  obtain ⟨s14, z15⟩ : Col c28 c29 c30 _ ∧ c30.c1 = 0 := col_fmul a.d7 b.d7 k14 a7 b7 (by have := prod_le a7 b7; clear * - this B14; omega)
  have k15 := s14.ok
  clear_value c30
  have y15 := val_of_ok k15
  rw [z15] at y15
  have h15 : c30.val + 0 = l15 + 2 ^ 32 * 0 := horner_last y15
  have h14 := horner s14.eq h15
  have h13 := horner s13.eq h14
  have h12 := horner s12.eq h13
  have h11 := horner s11.eq h12
  have h10 := horner s10.eq h11
  have h9 := horner s9.eq h10
  have h8 := horner s8.eq h9
  have h7 := horner s7.eq h8
  have h6 := horner s6.eq h7
  have h5 := horner s5.eq h6
  have h4 := horner s4.eq h5
  have h3 := horner s3.eq h4
  have h2 := horner s2.eq h3
  have h1 := horner s1.eq h2
  have h0 := horner s0.eq h1
  refine ⟨l0, l1, l2, l3, l4, l5, l6, l7, l8, l9, l10, l11, l12, l13, l14, l15, rfl, s0.lt, s1.lt, s2.lt, s3.lt, s4.lt, s5.lt, s6.lt, s7.lt, s8.lt, s9.lt, s10.lt, s11.lt, s12.lt, s13.lt, s14.lt, k15.c0, ?_⟩
  simp only [words32]
  refine Eq.trans h0.symm ?_
  rw [z0]
  unfold nat
  simp only [prods]
  ring

theorem reduce512a_spec {l0 l1 l2 l3 l4 l5 l6 l7 l8 l9 l10 l11 l12 l13 l14 l15 : ℕ} (h0 : l0 < 2 ^ 32) (h1 : l1 < 2 ^ 32) (h2 : l2 < 2 ^ 32) (h3 : l3 < 2 ^ 32) (h4 : l4 < 2 ^ 32) (h5 : l5 < 2 ^ 32) (h6 : l6 < 2 ^ 32) (h7 : l7 < 2 ^ 32) (h8 : l8 < 2 ^ 32) (h9 : l9 < 2 ^ 32) (h10 : l10 < 2 ^ 32) (h11 : l11 < 2 ^ 32) (h12 : l12 < 2 ^ 32) (h13 : l13 < 2 ^ 32) (h14 : l14 < 2 ^ 32) (h15 : l15 < 2 ^ 32) :
    ∃ m0 m1 m2 m3 m4 m5 m6 m7 m8 m9 m10 m11 m12, reduce512a [l0, l1, l2, l3, l4, l5, l6, l7, l8, l9, l10, l11, l12, l13, l14, l15] = [m0, m1, m2, m3, m4, m5, m6, m7, m8, m9, m10, m11, m12] ∧
    m0 < 2 ^ 32 ∧ m1 < 2 ^ 32 ∧ m2 < 2 ^ 32 ∧ m3 < 2 ^ 32 ∧ m4 < 2 ^ 32 ∧ m5 < 2 ^ 32 ∧ m6 < 2 ^ 32 ∧ m7 < 2 ^ 32 ∧ m8 < 2 ^ 32 ∧ m9 < 2 ^ 32 ∧ m10 < 2 ^ 32 ∧ m11 < 2 ^ 32 ∧ m12 < 2 ^ 32 ∧
    words32 [m0, m1, m2, m3, m4, m5, m6, m7, m8, m9, m10, m11, m12] = words32 [l0, l1, l2, l3, l4, l5, l6, l7] + words32 [l8, l9, l10, l11, l12, l13, l14, l15] * (2 ^ 256 - n) := by
  unfold reduce512a
  extract_lets n0' n1' n2' n3' n4' n5' n6' n7' c0 c1 m0 c2 c3 c4 m1 c5 c6 c7 m2 c8 c9 c10 m3 c11 c12 c13 c14 m4 c15 c16 c17 c18 m5 c19 c20 c21 c22 m6 c23 c24 c25 c26 m7 c27 c28 c29 m8 c30 c31 c32 m9 c33 c34 c35 m10 c36 c37 m11 c38 m12
  have z0 : c0.val = l0 := val_init _
  have k0 : c0.Ok 0 := ok_init h0
  clear_value c0
  have q0 : l8 * s8NC0 < 2 ^ 63 := by rw [s8NC0_eq]; have := h8; clear * - this; omega
  obtain ⟨s0, z1⟩ : Col c0 c1 c2 _ ∧ c2.c1 = 0 := col_fmul l8 s8NC0 k0 h8 (by decide) (by clear * - q0 z0 h0; omega)
  have k1 := s0.ok
  clear_value c2
  have w1 : WordPairs [(l9, s8NC0), (l8, s8NC1)] := by simp only [WordPairs, List.forall_mem_cons, List.not_mem_nil, false_imp_iff, implies_true, and_true]; exact ⟨⟨h9, (by decide)⟩, ⟨h8, (by decide)⟩⟩
  have y1 := val_of_ok k1
  have y1b := k1.c0
  rw [z1] at y1
  have s1 : Col c2 c4 c5 _ := col_fsum_mul l1 [(l9, s8NC0), (l8, s8NC1)] k1 h1 (by clear * - y1 y1b h1; omega) w1 (by simp)
  have k2 := s1.ok
  clear_value c5
  have w2 : WordPairs [(l10, s8NC0), (l9, s8NC1), (l8, s8NC2)] := by simp only [WordPairs, List.forall_mem_cons, List.not_mem_nil, false_imp_iff, implies_true, and_true]; exact ⟨⟨h10, (by decide)⟩, ⟨h9, (by decide)⟩, ⟨h8, (by decide)⟩⟩
  have s2 : Col c5 c7 c8 _ := col_sum_mul l2 [(l10, s8NC0), (l9, s8NC1), (l8, s8NC2)] k2 h2 w2 (by simp)
  have k3 := s2.ok
  clear_value c8
  have w3 : WordPairs [(l11, s8NC0), (l10, s8NC1), (l9, s8NC2), (l8, s8NC3)] := by simp only [WordPairs, List.forall_mem_cons, List.not_mem_nil, false_imp_iff, implies_true, and_true]; exact ⟨⟨h11, (by decide)⟩, ⟨h10, (by decide)⟩, ⟨h9, (by decide)⟩, ⟨h8, (by decide)⟩⟩
  have s3 : Col c8 c10 c11 _ := col_sum_mul l3 [(l11, s8NC0), (l10, s8NC1), (l9, s8NC2), (l8, s8NC3)] k3 h3 w3 (by simp)
  have k4 := s3.ok
  clear_value c11
  have w4 : WordPairs [(l12, s8NC0), (l11, s8NC1), (l10, s8NC2), (l9, s8NC3)] := by simp only [WordPairs, List.forall_mem_cons, List.not_mem_nil, false_imp_iff, implies_true, and_true]; exact ⟨⟨h12, (by decide)⟩, ⟨h11, (by decide)⟩, ⟨h10, (by decide)⟩, ⟨h9, (by decide)⟩⟩
  have s4 : Col c11 c14 c15 _ := col_sum_mul_sum l4 l8 [(l12, s8NC0), (l11, s8NC1), (l10, s8NC2), (l9, s8NC3)] k4 h4 w4 (by simp) h8
  have k5 := s4.ok
  clear_value c15
  have w5 : WordPairs [(l13, s8NC0), (l12, s8NC1), (l11, s8NC2), (l10, s8NC3)] := by simp only [WordPairs, List.forall_mem_cons, List.not_mem_nil, false_imp_iff, implies_true, and_true]; exact ⟨⟨h13, (by decide)⟩, ⟨h12, (by decide)⟩, ⟨h11, (by decide)⟩, ⟨h10, (by decide)⟩⟩
  have s5 : Col c15 c18 c19 _ := col_sum_mul_sum l5 l9 [(l13, s8NC0), (l12, s8NC1), (l11, s8NC2), (l10, s8NC3)] k5 h5 w5 (by simp) h9
  have k6 := s5.ok
  clear_value c19
  have w6 : WordPairs [(l14, s8NC0), (l13, s8NC1), (l12, s8NC2), (l11, s8NC3)] := by simp only [WordPairs, List.forall_mem_cons, List.not_mem_nil, false_imp_iff, implies_true, and_true]; exact ⟨⟨h14, (by decide)⟩, ⟨h13, (by decide)⟩, ⟨h12, (by decide)⟩, ⟨h11, (by decide)⟩⟩
  have s6 : Col c19 c22 c23 _ := col_sum_mul_sum l6 l10 [(l14, s8NC0), (l13, s8NC1), (l12, s8NC2), (l11, s8NC3)] k6 h6 w6 (by simp) h10
  have k7 := s6.ok
  clear_value c23
  have w7 : WordPairs [(l15, s8NC0), (l14, s8NC1), (l13, s8NC2), (l12, s8NC3)] := by simp only [WordPairs, List.forall_mem_cons, List.not_mem_nil, false_imp_iff, implies_true, and_true]; exact ⟨⟨h15, (by decide)⟩, ⟨h14, (by decide)⟩, ⟨h13, (by decide)⟩, ⟨h12, (by decide)⟩⟩
  have s7 : Col c23 c26 c27 _ := col_sum_mul_sum l7 l11 [(l15, s8NC0), (l14, s8NC1), (l13, s8NC2), (l12, s8NC3)] k7 h7 w7 (by simp) h11
  have k8 := s7.ok
  clear_value c27
  have w8 : WordPairs [(l15, s8NC1), (l14, s8NC2), (l13, s8NC3)] := by simp only [WordPairs, List.forall_mem_cons, List.not_mem_nil, false_imp_iff, implies_true, and_true]; exact ⟨⟨h15, (by decide)⟩, ⟨h14, (by decide)⟩, ⟨h13, (by decide)⟩⟩
  have s8 : Col c27 c29 c30 _ := col_mul_sum l12 [(l15, s8NC1), (l14, s8NC2), (l13, s8NC3)] k8 w8 (by simp) h12
  have k9 := s8.ok
  clear_value c30
  have w9 : WordPairs [(l15, s8NC2), (l14, s8NC3)] := by simp only [WordPairs, List.forall_mem_cons, List.not_mem_nil, false_imp_iff, implies_true, and_true]; exact ⟨⟨h15, (by decide)⟩, ⟨h14, (by decide)⟩⟩
  have s9 : Col c30 c32 c33 _ := col_mul_sum l13 [(l15, s8NC2), (l14, s8NC3)] k9 w9 (by simp) h13
  have k10 := s9.ok
  clear_value c33
  have w10 : WordPairs [(l15, s8NC3)] := by simp only [WordPairs, List.forall_mem_cons, List.not_mem_nil, false_imp_iff, implies_true, and_true]; exact ⟨h15, (by decide)⟩
  have s10 : Col c33 c35 c36 _ := col_mul_sum l14 [(l15, s8NC3)] k10 w10 (by simp) h14
  have k11 := s10.ok
  clear_value c36
  have g11 := s10.bound (le_of_lt k10.val_lt) (T := 36893488147419103232) (by have this0 := prods_leK w10 (k := 1) (by simp); have := h14; clear * - w10 h14 this0; omega)
  obtain ⟨s11, z12⟩ : Col c36 c37 c38 _ ∧ c38.c1 = 0 := col_fsum l15 k11 h15 (by norm_num at g11; clear * - g11 h15; omega)
  have k12 := s11.ok
  clear_value c38
  have y12 := val_of_ok k12
  rw [z12] at y12
  have h12x : c38.val + 0 = m12 + 2 ^ 32 * 0 := horner_last y12
  have h11x := horner s11.eq h12x
  have h10x := horner s10.eq h11x
  have h9x := horner s9.eq h10x
  have h8x := horner s8.eq h9x
  have h7x := horner s7.eq h8x
  have h6x := horner s6.eq h7x
  have h5x := horner s5.eq h6x
  have h4x := horner s4.eq h5x
  have h3x := horner s3.eq h4x
  have h2x := horner s2.eq h3x
  have h1x := horner s1.eq h2x
  have h0x := horner s0.eq h1x
  refine ⟨m0, m1, m2, m3, m4, m5, m6, m7, m8, m9, m10, m11, m12, rfl, s0.lt, s1.lt, s2.lt, s3.lt, s4.lt, s5.lt, s6.lt, s7.lt, s8.lt, s9.lt, s10.lt, s11.lt, k12.c0, ?_⟩
  simp only [words32]
  refine Eq.trans h0x.symm ?_
  rw [z0, nc_eq]
  simp only [prods, s8NC0_eq, s8NC1_eq, s8NC2_eq, s8NC3_eq]
  ring

theorem reduce512b_spec {m0 m1 m2 m3 m4 m5 m6 m7 m8 m9 m10 m11 m12 : ℕ} (h0 : m0 < 2 ^ 32) (h1 : m1 < 2 ^ 32) (h2 : m2 < 2 ^ 32) (h3 : m3 < 2 ^ 32) (h4 : m4 < 2 ^ 32) (h5 : m5 < 2 ^ 32) (h6 : m6 < 2 ^ 32) (h7 : m7 < 2 ^ 32) (h8 : m8 < 2 ^ 32) (h9 : m9 < 2 ^ 32) (h10 : m10 < 2 ^ 32) (h11 : m11 < 2 ^ 32) (h12 : m12 < 2 ^ 32) (hm : m12 ≤ 1) :
    ∃ p0 p1 p2 p3 p4 p5 p6 p7 p8, reduce512b [m0, m1, m2, m3, m4, m5, m6, m7, m8, m9, m10, m11, m12] = [p0, p1, p2, p3, p4, p5, p6, p7, p8] ∧
    p0 < 2 ^ 32 ∧ p1 < 2 ^ 32 ∧ p2 < 2 ^ 32 ∧ p3 < 2 ^ 32 ∧ p4 < 2 ^ 32 ∧ p5 < 2 ^ 32 ∧ p6 < 2 ^ 32 ∧ p7 < 2 ^ 32 ∧ p8 < 2 ^ 32 ∧
    words32 [p0, p1, p2, p3, p4, p5, p6, p7, p8] = words32 [m0, m1, m2, m3, m4, m5, m6, m7] + words32 [m8, m9, m10, m11, m12] * (2 ^ 256 - n) := by
  unfold reduce512b
  extract_lets m0' m1' m2' m3' m4' m5' m6' m7' m8' m9' m10' m11' m12' c0 c1 p0 c2 c3 c4 p1 c5 c6 c7 p2 c8 c9 c10 p3 c11 c12 c13 c14 p4 c15 c16 c17 c18 p5 c19 c20 c21 c22 p6 c23 c24 c25 c26 p7 c27 p8
  have z0 : c0.val = m0 := val_init _
  have k0 : c0.Ok 0 := ok_init h0
  clear_value c0
  have q0 : m8 * s8NC0 < 2 ^ 63 := by rw [s8NC0_eq]; have := h8; clear * - this; omega
  obtain ⟨s0, z1⟩ : Col c0 c1 c2 _ ∧ c2.c1 = 0 := col_fmul m8 s8NC0 k0 h8 (by decide) (by clear * - q0 z0 h0; omega)
  have k1 := s0.ok
  clear_value c2
  have w1 : WordPairs [(m9, s8NC0), (m8, s8NC1)] := by simp only [WordPairs, List.forall_mem_cons, List.not_mem_nil, false_imp_iff, implies_true, and_true]; exact ⟨⟨h9, (by decide)⟩, ⟨h8, (by decide)⟩⟩
  have y1 := val_of_ok k1
  have y1b := k1.c0
  rw [z1] at y1
  have s1 : Col c2 c4 c5 _ := col_fsum_mul m1 [(m9, s8NC0), (m8, s8NC1)] k1 h1 (by clear * - y1 y1b h1; omega) w1 (by simp)
  have k2 := s1.ok
  clear_value c5
  have w2 : WordPairs [(m10, s8NC0), (m9, s8NC1), (m8, s8NC2)] := by simp only [WordPairs, List.forall_mem_cons, List.not_mem_nil, false_imp_iff, implies_true, and_true]; exact ⟨⟨h10, (by decide)⟩, ⟨h9, (by decide)⟩, ⟨h8, (by decide)⟩⟩
  have s2 : Col c5 c7 c8 _ := col_sum_mul m2 [(m10, s8NC0), (m9, s8NC1), (m8, s8NC2)] k2 h2 w2 (by simp)
  have k3 := s2.ok
  clear_value c8
  have w3 : WordPairs [(m11, s8NC0), (m10, s8NC1), (m9, s8NC2), (m8, s8NC3)] := by simp only [WordPairs, List.forall_mem_cons, List.not_mem_nil, false_imp_iff, implies_true, and_true]; exact ⟨⟨h11, (by decide)⟩, ⟨h10, (by decide)⟩, ⟨h9, (by decide)⟩, ⟨h8, (by decide)⟩⟩
  have s3 : Col c8 c10 c11 _ := col_sum_mul m3 [(m11, s8NC0), (m10, s8NC1), (m9, s8NC2), (m8, s8NC3)] k3 h3 w3 (by simp)
  have k4 := s3.ok
  clear_value c11
  have w4 : WordPairs [(m12, s8NC0), (m11, s8NC1), (m10, s8NC2), (m9, s8NC3)] := by simp only [WordPairs, List.forall_mem_cons, List.not_mem_nil, false_imp_iff, implies_true, and_true]; exact ⟨⟨h12, (by decide)⟩, ⟨h11, (by decide)⟩, ⟨h10, (by decide)⟩, ⟨h9, (by decide)⟩⟩
  have s4 : Col c11 c14 c15 _ := col_sum_mul_sum m4 m8 [(m12, s8NC0), (m11, s8NC1), (m10, s8NC2), (m9, s8NC3)] k4 h4 w4 (by simp) h8
  have k5 := s4.ok
  clear_value c15
  have w5 : WordPairs [(m12, s8NC1), (m11, s8NC2), (m10, s8NC3)] := by simp only [WordPairs, List.forall_mem_cons, List.not_mem_nil, false_imp_iff, implies_true, and_true]; exact ⟨⟨h12, (by decide)⟩, ⟨h11, (by decide)⟩, ⟨h10, (by decide)⟩⟩
  have s5 : Col c15 c18 c19 _ := col_sum_mul_sum m5 m9 [(m12, s8NC1), (m11, s8NC2), (m10, s8NC3)] k5 h5 w5 (by simp) h9
  have k6 := s5.ok
  clear_value c19
  have w6 : WordPairs [(m12, s8NC2), (m11, s8NC3)] := by simp only [WordPairs, List.forall_mem_cons, List.not_mem_nil, false_imp_iff, implies_true, and_true]; exact ⟨⟨h12, (by decide)⟩, ⟨h11, (by decide)⟩⟩
  have s6 : Col c19 c22 c23 _ := col_sum_mul_sum m6 m10 [(m12, s8NC2), (m11, s8NC3)] k6 h6 w6 (by simp) h10
  have k7 := s6.ok
  clear_value c23
  have g7 := s6.bound (le_of_lt k6.val_lt) (T := 73786976294838206464) (by have := prods_leK w6 (k := 2) (by simp); clear * - this h6 h10; omega)
  have q7 : m12 * s8NC3 < 2 ^ 32 := by rw [s8NC3_eq]; clear * - hm; omega
  obtain ⟨s7, z8⟩ : Col c23 c26 c27 _ ∧ c27.c1 = 0 := col_fsum_fmul_fsum m7 m12 s8NC3 m11 k7 h7 h12 (by decide) h11 (by norm_num at g7; clear * - g7 q7 h7 h11; omega)
  have k8 := s7.ok
  clear_value c27
  have y8 := val_of_ok k8
  rw [z8] at y8
  have g8 := s7.eq
  have ep : p8 = c27.c0 + m12 := Nat.mod_eq_of_lt (by show c27.c0 + m12 < 2 ^ 32; norm_num at g7; have y0 := s7.lt; clear * - g7 g8 y8 hm h7 h11 q7 y0; omega)
  have lp : p8 < 2 ^ 32 := Nat.mod_lt _ (by decide)
  have h8x : c27.val + m12 = p8 + 2 ^ 32 * 0 := by rw [ep]; clear * - y8; omega
  have h7x := horner s7.eq h8x
  have h6x := horner s6.eq h7x
  have h5x := horner s5.eq h6x
  have h4x := horner s4.eq h5x
  have h3x := horner s3.eq h4x
  have h2x := horner s2.eq h3x
  have h1x := horner s1.eq h2x
  have h0x := horner s0.eq h1x
  refine ⟨p0, p1, p2, p3, p4, p5, p6, p7, p8, rfl, s0.lt, s1.lt, s2.lt, s3.lt, s4.lt, s5.lt, s6.lt, s7.lt, lp, ?_⟩
  simp only [words32]
  refine Eq.trans h0x.symm ?_
  rw [z0, nc_eq]
  simp only [prods, s8NC0_eq, s8NC1_eq, s8NC2_eq, s8NC3_eq]
  ring

end Model.Sc8
end Secp
