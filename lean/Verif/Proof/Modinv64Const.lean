import Verif.Proof.Modinv64Norm

/-!
The constant-time inversion.
-/

namespace Secp.Model
open Secp.Divstep

/-- Powers of two cancel modulo an odd number. -/
theorem cancel_two_pow {m a b : ℤ} (hm : m % 2 = 1) (k : ℕ) (h : 2 ^ k * a ≡ 2 ^ k * b [ZMOD m]) :
    a ≡ b [ZMOD m] := by
  rw [Int.modEq_iff_dvd] at h ⊢
  rw [← mul_sub] at h
  have h2 : IsCoprime m (2 : ℤ) := ⟨1, -(m / 2), by omega⟩
  exact (h2.pow_right (n := k)).dvd_of_dvd_mul_left h

/-- The matrix applied to `d, e` keeps `d x ≡ f` and `e x ≡ g`. -/
theorem de_track {m x u v d e f g d' f' : ℤ} (hm : m % 2 = 1) (hd : d * x ≡ f [ZMOD m])
    (he : e * x ≡ g [ZMOD m]) (hd' : 2 ^ 62 * d' ≡ u * d + v * e [ZMOD m])
    (hf' : 2 ^ 62 * f' = u * f + v * g) : d' * x ≡ f' [ZMOD m] := by
  refine cancel_two_pow hm 62 ?_
  rw [hf']
  calc 2 ^ 62 * (d' * x) = 2 ^ 62 * d' * x := by ring
    _ ≡ (u * d + v * e) * x [ZMOD m] := hd'.mul_right x
    _ = u * (d * x) + v * (e * x) := by ring
    _ ≡ u * f + v * g [ZMOD m] := (hd.mul_left u).add (he.mul_left v)

theorem modinv64Loop_spec {M : Modinfo} {m : ℤ} (hM : M.Ok m) {x : ℤ} (k : ℕ) (hk : k ≤ 10) :
    ∀ {S : DS} {d e f g : S62}, |S.z| + 59 * k ≤ 2 ^ 20 → S.f % 2 = 1 → f.int = S.f → g.int = S.g →
    |S.f| ≤ m → |S.g| ≤ m → f.Small → g.Small → d.Low → e.Low → -2 * m < d.int → d.int < m →
    -2 * m < e.int → e.int < m → d.int * x ≡ f.int [ZMOD m] → e.int * x ≡ g.int [ZMOD m] →
    ∃ d' f', modinv64Loop M k S.z d e f g = some (d', f') ∧ d'.Low ∧ -2 * m < d'.int ∧ d'.int < m ∧
      f'.int = (run 2 (59 * k) S).f ∧ d'.int * x ≡ f'.int [ZMOD m] ∧ |f'.int| ≤ m ∧
      (0 < k → f'.Low) ∧ (d.int = 0 → g.int = 0 → d'.int = 0) := by
  induction k with
  | zero =>
    intro S d e f g hz hodd hf hg bf bg sf sg ld le d1 d2 e1 e2 td te
    exact ⟨d, f, rfl, ld, d1, d2, hf, td, hf ▸ bf, fun h => absurd h (by omega), fun h _ => h⟩
  | succ k ih =>
    intro S d e f g hz hodd hf hg bf bg sf sg ld le d1 d2 e1 e2 td te
    have hm1 := hM.ge
    have hm2 := hM.le
    have ef : Cong 62 (toU64 f.v0) S.f := by
      rw [← hf]
      refine Int.ModEq.trans (cong_toU64 f.v0 (by norm_num)) ?_
      rw [Int.modEq_iff_dvd]
      refine ⟨f.v1 + f.v2 * 2 ^ 62 + f.v3 * 2 ^ 124 + f.v4 * 2 ^ 186, ?_⟩
      unfold S62.int; ring
    have eg : Cong 62 (toU64 g.v0) S.g := by
      rw [← hg]
      refine Int.ModEq.trans (cong_toU64 g.v0 (by norm_num)) ?_
      rw [Int.modEq_iff_dvd]
      refine ⟨g.v1 + g.v2 * 2 ^ 62 + g.v3 * 2 ^ 124 + g.v4 * 2 ^ 186, ?_⟩
      unfold S62.int; ring
    have hds := divsteps59_spec (z := S.z) hodd (by push_cast at hz; omega) (toU64_lt _) (toU64_lt _)
      ef eg
    have hinv := mrun_inv 2 (z := S.z) (G := S.g) hodd 59
    have hrz := run_z (κ := 2) (Or.inr rfl) 59 (s := S)
    have hzero : S.g = 0 → (mrun 2 59 ⟨S.z, S.f, S.g⟩).v = 0 ∧ (mrun 2 59 ⟨S.z, S.f, S.g⟩).s.g = 0 := by
      intro h0
      rw [h0, mrun_zero]
      exact ⟨rfl, rfl⟩
    have hs : (mrun 2 59 ⟨S.z, S.f, S.g⟩).s = run 2 59 S := mrun_s 2 59 S
    generalize mrun 2 59 ⟨S.z, S.f, S.g⟩ = mm at *
    obtain ⟨i1, i2, i3, i4, i5⟩ := hinv
    have huv : |8 * mm.u| + |8 * mm.v| ≤ 2 ^ 62 := by
      rw [abs_mul, abs_mul]; norm_num at i3 ⊢; omega
    have hqr : |8 * mm.q| + |8 * mm.r| ≤ 2 ^ 62 := by
      rw [abs_mul, abs_mul]; norm_num at i4 ⊢; omega
    have bf' := row_bound i1 i3 bf bg
    have bg' := row_bound i2 i4 bf bg
    have x1 : 2 ^ 62 * mm.s.f = 8 * mm.u * f.int + 8 * mm.v * g.int := by
      rw [hf, hg]; linear_combination 8 * i1
    have x2 : 2 ^ 62 * mm.s.g = 8 * mm.q * f.int + 8 * mm.r * g.int := by
      rw [hf, hg]; linear_combination 8 * i2
    obtain ⟨d', e', ede, ld', le', d1', d2', e1', e2', cd', ce', z'⟩ :=
      updateDe62_spec hM (t := ⟨8 * mm.u, 8 * mm.v, 8 * mm.q, 8 * mm.r⟩) huv hqr ld le d1 d2 e1 e2
    obtain ⟨f', g', efg, hf', hg', lf', lg'⟩ :=
      updateFg62_spec (t := ⟨8 * mm.u, 8 * mm.v, 8 * mm.q, 8 * mm.r⟩) huv hqr sf sg x1
        (by omega) x2 (by omega)
    have td' := de_track hM.odd td te cd' x1
    have te' := de_track hM.odd td te ce' x2
    rw [← hf'] at td'
    rw [← hg'] at te'
    obtain ⟨d'', f'', q1, q2, q3, q4, q5, q6, q7, q8, q9⟩ := ih (by omega) (S := mm.s) (d := d') (e := e')
      (f := f') (g := g') (by rw [hs]; push_cast at hz hrz; omega) i5 hf' hg' bf' bg'
      (lf'.small (by rw [hf']; omega)) (lg'.small (by rw [hg']; omega)) ld' le' d1' d2' e1' e2' td' te'
    refine ⟨d'', f'', ?_, q2, q3, q4, ?_, q6, q7, ?_, ?_⟩
    · unfold modinv64Loop
      rw [hds]
      dsimp only
      rw [ede, Option.bind_some]
      dsimp only
      rw [efg, Option.bind_some]
      exact q1
    · rw [q5, hs, ← run_add, show 59 + 59 * k = 59 * (k + 1) by ring]
    · intro _
      by_cases hk0 : 0 < k
      · exact q8 hk0
      · have : k = 0 := by omega
        subst this
        have : some (d', f') = some (d'', f'') := q1
        simp only [Option.some.injEq, Prod.mk.injEq] at this
        rw [← this.2]; exact lf'
    · intro h0 hg0
      have := hzero (by rw [← hg]; exact hg0)
      refine q9 (z' h0 ?_) ?_
      · dsimp only; rw [this.1]; ring
      · rw [hg', this.2]

/-- `±1` are the only divisors common to coprime numbers. -/
theorem unit_of_run {κ : ℤ} {j : ℕ} {m x : ℤ} {z : ℤ} (hm : m % 2 = 1) (hc : IsCoprime x m)
    (h : (run κ j ⟨z, m, x⟩).g = 0) :
    (run κ j ⟨z, m, x⟩).f = 1 ∨ (run κ j ⟨z, m, x⟩).f = -1 := by
  obtain ⟨h1, h2⟩ := run_dvd κ j (s := ⟨z, m, x⟩) hm (d := (run κ j ⟨z, m, x⟩).f) (dvd_refl _)
    (by rw [h]; exact dvd_zero _)
  have : IsUnit (run κ j ⟨z, m, x⟩).f := hc.isUnit_of_dvd' h2 h1
  exact Int.isUnit_iff.mp this

theorem Modinfo.Ok.small {M : Modinfo} {m : ℤ} (h : M.Ok m) : M.modulus.Small :=
  ⟨h.l0.le, h.l1.le, h.l2.le, h.l3.le, h.l4.le⟩

theorem S62.Canon.low {a : S62} (h : a.Canon) : a.Low := ⟨h.v0, h.v1, h.v2, h.v3⟩

theorem S62.Canon.small {a : S62} (h : a.Canon) : a.Small := by
  obtain ⟨h0, h1, h2, h3, h4⟩ := h
  refine ⟨?_, ?_, ?_, ?_, ?_⟩ <;> rw [abs_le] <;> omega

/-- The constant-time inversion. -/
theorem modinv64_spec {M : Modinfo} {m : ℤ} (hM : M.Ok m) {x : S62} (hx : x.Canon)
    (h1 : x.int < m) :
    ∃ r, modinv64 x M = some r ∧ r.Canon ∧ 0 ≤ r.int ∧ r.int < m ∧
      (x.int = 0 → r.int = 0) ∧ (IsCoprime x.int m → r.int * x.int ≡ 1 [ZMOD m]) := by
  have hm1 := hM.ge
  have hm2 := hM.le
  have h0 : 0 ≤ x.int := by
    obtain ⟨a, b, c, d, e⟩ := hx
    unfold S62.int
    omega
  obtain ⟨d, f, e1, e2, e3, e4, e5, e6, e7, e8, e9⟩ := modinv64Loop_spec hM (x := x.int) 10 (le_refl _)
    (S := ⟨-1, m, x.int⟩) (d := ⟨0, 0, 0, 0, 0⟩) (e := ⟨1, 0, 0, 0, 0⟩) (f := M.modulus) (g := x)
    (by norm_num) hM.odd hM.val rfl (by dsimp only; rw [abs_of_nonneg] <;> omega)
    (by dsimp only; rw [abs_of_nonneg h0]; exact h1.le) hM.small hx.small
    ⟨by norm_num, by norm_num, by norm_num, by norm_num⟩
    ⟨by norm_num, by norm_num, by norm_num, by norm_num⟩
    (by simp [S62.int]; omega) (by simp [S62.int]; omega) (by simp [S62.int]; omega)
    (by simp [S62.int]; omega)
    (by
      rw [hM.val, Int.modEq_iff_dvd]
      refine ⟨1, ?_⟩
      simp [S62.int])
    (by simp [S62.int])
  have lf := e8 (by norm_num)
  have sf : f.Small := lf.small (by omega)
  obtain ⟨r, q1, q2, q3, q4, q5, q6⟩ := normalize62_spec hM e2 e3 e4 (sign := f.v4)
    (by have := sf.v4; rw [abs_le] at this; omega) (by have := sf.v4; rw [abs_le] at this; omega)
  refine ⟨r, ?_, q2, q3, q4, ?_, ?_⟩
  · unfold modinv64
    rw [e1, Option.bind_some]
    exact q1
  · intro hx0
    exact q6 (e9 (by simp [S62.int]) hx0)
  · intro hcop
    have hr := reach2 hM.odd h0 h1.le hm2
    have hu := unit_of_run (j := 590) hM.odd hcop hr
    have key : r.int * x.int ≡ (if f.v4 < 0 then -1 else 1) * f.int [ZMOD m] := by
      calc r.int * x.int ≡ (if f.v4 < 0 then -1 else 1) * d.int * x.int [ZMOD m] := q5.mul_right _
        _ = (if f.v4 < 0 then -1 else 1) * (d.int * x.int) := by ring
        _ ≡ _ [ZMOD m] := e6.mul_left _
    refine key.trans ?_
    have hs := lf.sign
    rw [show 59 * 10 = 590 from rfl] at e5
    rcases hu with hu | hu
    · rw [e5, hu] at hs ⊢
      rw [if_neg (by rw [hs]; norm_num)]
      rfl
    · rw [e5, hu] at hs ⊢
      rw [if_pos (by rw [hs]; norm_num)]
      rfl

end Secp.Model
