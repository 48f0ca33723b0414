import Verif.Proof.Strauss

/-!
# C42 — Verification multiplication is correct for all inputs

`secp256k1_ecmult` returns a representative of `a·P + b·G` for every point `P` of the curve
(infinity included), every Jacobian representative of it and all scalars `a, b ∈ [0, n)`; a NULL
second scalar counts as 0.  The proof covers the endomorphism split, the recoding of both halves, the
table of odd multiples with its common denominator, and every entry of the static tables
`secp256k1_pre_g` and `secp256k1_pre_g_128` (`Verif/Model/PreG`).  The multiples on the right-hand
side are repeated addition in Mathlib's group of points.
-/

namespace Secp
open Model

/-- `secp256k1_ecmult(r, a, na, ng)` is `na·A + ng·G`. -/
theorem C42_ecmult {a : Gej Fp} {A : Pt} (ha : GejRep 7 a A) (na ng : Fn) :
    GejRep (7 : Fp) (ecmult a na (some ng)) (na.val • A + ng.val • G) := by
  rw [val_smul, val_smul]; exact ecmult_rep ha na (some ng)

/-- `secp256k1_ecmult(r, a, na, NULL)` is `na·A`. -/
theorem C42_ecmult_no_g {a : Gej Fp} {A : Pt} (ha : GejRep 7 a A) (na : Fn) :
    GejRep (7 : Fp) (ecmult a na none) (na.val • A) := by
  have := ecmult_rep ha na none
  rw [Option.getD_none, fn_zero_smul, add_zero] at this
  rw [val_smul]; exact this

/-- `secp256k1_ecmult_strauss_wnaf` on any list of points and scalars. -/
theorem C42_strauss (pts : List (Gej Fp × Fn × Pt)) (h : ∀ t ∈ pts, GejRep 7 t.1 t.2.2) (ng : Fn) :
    GejRep 7 (strauss (pts.map fun t => (t.1, t.2.1)) (some ng))
      ((pts.map fun t => t.2.1.val • t.2.2).sum + ng.val • G) := by
  have h2 : List.Forall₂ (fun a P => GejRep 7 a.1 P) (pts.map fun t => (t.1, t.2.1))
      (pts.map fun t => t.2.2) := by
    induction pts with
    | nil => exact .nil
    | cons t l ih =>
      exact .cons (h t (by simp)) (ih fun u hu => h u (by simp [hu]))
  have := strauss_rep h2 (some ng)
  have e : linComb ((pts.map fun t => t.2.2).zip ((pts.map fun t => (t.1, t.2.1)).map Prod.snd)) =
      (pts.map fun t => t.2.1.val • t.2.2).sum := by
    clear this h2 h
    induction pts with
    | nil => rfl
    | cons t l ih =>
      simp only [linComb, List.map_cons, List.zip_cons_cons, List.sum_cons] at ih ⊢
      rw [ih, val_smul]
  rw [e] at this
  rw [val_smul]
  exact this

/-- Every entry of the static tables used with the generator. -/
theorem C42_tables (i : ℕ) (h : i < 8192) :
    GeRep (7 : Fp) (geFromStorage (preG i)) ((2 * i + 1) • G) ∧
      GeRep (7 : Fp) (geFromStorage (preG128 i)) ((2 * i + 1) • 2 ^ 128 • G) :=
  ⟨preG_entry i h, preG128_entry i h⟩

/-- The scalar split used by the endomorphism: `r1 + λ·r2 = k` with both halves below `2^128` in
absolute value, and `λ·(x, y) = (β·x, y)`. -/
theorem C42_split_lambda (k : Fn) :
    (scSplitLambda k).1 + (constLambda : Fn) * (scSplitLambda k).2 = k ∧
      ((scSplitLambda k).1.val < 2 ^ 128 ∨ (-(scSplitLambda k).1).val < 2 ^ 128) ∧
      ((scSplitLambda k).2.val < 2 ^ 128 ∨ (-(scSplitLambda k).2).val < 2 ^ 128) :=
  splitLambda_spec k

/-- The recoding of a scalar below `2^128` in absolute value into 129 digits of window `w`: the
digits are 0 or odd and below `2^(w-1)` in absolute value, and sum up to the scalar. -/
theorem C42_wnaf {a : Fn} (ha : a.val < 2 ^ 128 ∨ (-a).val < 2 ^ 128) {w : ℕ} (hw : 2 ≤ w) :
    (∀ j, let d := (ecmultWnaf 129 a w).1.getD j 0
      d = 0 ∨ d % 2 = 1 ∧ -(2 ^ (w - 1)) < d ∧ d < 2 ^ (w - 1)) ∧
    ((∑ j ∈ Finset.range 129, (ecmultWnaf 129 a w).1.getD j 0 * 2 ^ j : ℤ) : Fn) = a := by
  obtain ⟨h1, h2, _, h4⟩ := ecmultWnaf_spec (show Small a from ha) hw
  exact ⟨h1, h4 129 h2⟩

/-- The hypotheses are met by the generator in Jacobian coordinates with `z = 1`, and the result
for `5·G + 7·G` is then a representative of `12·G`. -/
example : GejRep (7 : Fp) (ecmult (gejSetGe (geFromStorage (preG 0))) 5 (some 7)) (12 • G) := by
  have h := C42_ecmult (gejSetGe_rep (preG_entry 0 (by norm_num))) 5 7
  have e5 : (5 : Fn).val = 5 := by decide +kernel
  have e7 : (7 : Fn).val = 7 := by decide +kernel
  rw [e5, e7, ← mul_smul, ← add_smul] at h
  exact h

/-- Infinity as input. -/
example : GejRep (7 : Fp) (ecmult gejInfinity 5 (some 0)) 0 := by
  have h := C42_ecmult (gejInfinity_rep 7) 5 0
  rw [nsmul_zero, ZMod.val_zero, zero_nsmul, add_zero] at h
  exact h

/-- The bound of the recoding is met by the halves of any scalar, for instance of `-1`. -/
example : ((∑ j ∈ Finset.range 129,
    (ecmultWnaf 129 (scSplitLambda (-1)).1 5).1.getD j 0 * 2 ^ j : ℤ) : Fn) = (scSplitLambda (-1)).1 :=
  (C42_wnaf (C42_split_lambda (-1)).2.1 (by norm_num)).2

end Secp
