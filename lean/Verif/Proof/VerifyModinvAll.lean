import Verif.Proof.VerifyModinv

/-!
The loop of the constant-time modular inverse with all its checks.
-/

namespace Secp.Model.Verify
open Secp Secp.Divstep

/-- The ranges of `f` and `g` during division steps. -/
theorem run_range (κ : ℤ) (j : ℕ) {s : DS} {m : ℤ} (hodd : s.f % 2 = 1) (f1 : -m < s.f) (f2 : s.f ≤ m)
    (g1 : -m < s.g) (g2 : s.g < m) :
    -m < (Divstep.run κ j s).f ∧ (Divstep.run κ j s).f ≤ m ∧ -m < (Divstep.run κ j s).g ∧ (Divstep.run κ j s).g < m := by
  induction j generalizing s with
  | zero => exact ⟨f1, f2, g1, g2⟩
  | succ j ih =>
    rw [run_succ]
    unfold divstep
    by_cases c1 : s.g % 2 = 0
    · rw [if_pos c1]
      exact ih (s := ⟨s.z - 1, s.f, s.g / 2⟩) hodd f1 f2 (by dsimp only; omega) (by dsimp only; omega)
    · rw [if_neg c1]
      by_cases c2 : s.z < 0
      · rw [if_pos c2]
        exact ih (s := ⟨-s.z - κ, s.g, (s.g - s.f) / 2⟩) (by dsimp only; omega) g1 g2.le
          (by dsimp only; omega) (by dsimp only; omega)
      · rw [if_neg c2]
        exact ih (s := ⟨s.z - 1, s.f, (s.g + s.f) / 2⟩) hodd f1 f2 (by dsimp only; omega)
          (by dsimp only; omega)

theorem fgCheck_ok {M : Modinfo} {m : ℤ} (hM : M.Ok m) {f g : S62} (sf : f.Small) (sg : g.Small)
    (f1 : -m < f.int) (f2 : f.int ≤ m) (g1 : -m < g.int) (g2 : g.int < m) : fgCheck f g M = some () := by
  have hm1 := hM.ge
  have hm2 := hM.le
  have im : |M.modulus.int| ≤ 2 ^ 300 := by rw [hM.val, abs_le]; constructor <;> omega
  unfold fgCheck
  refine bind_step (rangeCheck_ok sf hM.small (by norm_num) (by norm_num) (by rw [abs_le]; constructor <;> omega)
    im ?_ ?_ ?_) (rangeCheck_ok sg hM.small (by norm_num) (by norm_num) (by rw [abs_le]; constructor <;> omega)
    im ?_ ?_ ?_)
  · rw [hM.val]; omega
  · rw [hM.val]; omega
  · intro h; cases h
  · rw [hM.val]; omega
  · rw [hM.val]; omega
  · intro _; rw [hM.val]; omega

theorem modinv64LoopV_ok {M : Modinfo} {m : ℤ} (hM : M.Ok m) (k : ℕ) (hk : k ≤ 10) :
    ∀ {S : DS} {d e f g : S62}, |S.z| + 59 * k ≤ 591 → S.f % 2 = 1 → f.int = S.f → g.int = S.g →
    -m < S.f → S.f ≤ m → -m < S.g → S.g < m → f.Small → g.Small → d.Low → e.Low → -2 * m < d.int → d.int < m →
    -2 * m < e.int → e.int < m →
    ∃ d' f' g', modinv64LoopV M k S.z d e f g = some (d', f', g') ∧
      modinv64Loop M k S.z d e f g = some (d', f') ∧ d'.Low ∧ -2 * m < d'.int ∧ d'.int < m ∧
      f'.int = (Divstep.run 2 (59 * k) S).f ∧ g'.int = (Divstep.run 2 (59 * k) S).g ∧ f'.Small ∧ g'.Small ∧
      (d.int = 0 → g.int = 0 → d'.int = 0) := by
  induction k with
  | zero =>
    intro S d e f g hz hodd hf hg f1 f2 g1 g2 sf sg ld le d1 d2 e1 e2
    exact ⟨d, f, g, rfl, rfl, ld, d1, d2, hf, hg, sf, sg, fun h _ => h⟩
  | succ k ih =>
    intro S d e f g hz hodd hf hg f1 f2 g1 g2 sf sg ld le d1 d2 e1 e2
    have hm1 := hM.ge
    have hm2 := hM.le
    have ef : Cong 62 (toU64 f.v0) S.f := by
      rw [← hf]
      refine Int.ModEq.trans (cong_toU64 f.v0 (by norm_num)) ?_
      rw [Int.modEq_iff_dvd]
      refine ⟨f.v1 + f.v2 * 2 ^ 62 + f.v3 * 2 ^ 124 + f.v4 * 2 ^ 186, ?_⟩
      unfold S62.int; ring
    have eg : Cong 62 (toU64 g.v0) S.g := by
      rw [← hg]
      refine Int.ModEq.trans (cong_toU64 g.v0 (by norm_num)) ?_
      rw [Int.modEq_iff_dvd]
      refine ⟨g.v1 + g.v2 * 2 ^ 62 + g.v3 * 2 ^ 124 + g.v4 * 2 ^ 186, ?_⟩
      unfold S62.int; ring
    have hds := divsteps59_spec (z := S.z) hodd (by push_cast at hz; omega) (toU64_lt _) (toU64_lt _)
      ef eg
    have hdv := divsteps59V_ok (z := S.z) (f0 := toU64 f.v0) (g0 := toU64 g.v0)
      (by have := ef.parity (by norm_num); omega) (toU64_lt _) (toU64_lt _) (by push_cast at hz; omega)
    rw [hds] at hdv
    have hinv := mrun_inv 2 (z := S.z) (G := S.g) hodd 59
    have hrz := run_z (κ := 2) (Or.inr rfl) 59 (s := S)
    have hrr := run_range 2 59 hodd f1 f2 g1 g2
    have hzero : S.g = 0 → (mrun 2 59 ⟨S.z, S.f, S.g⟩).v = 0 ∧ (mrun 2 59 ⟨S.z, S.f, S.g⟩).s.g = 0 := by
      intro h0
      rw [h0, mrun_zero]
      exact ⟨rfl, rfl⟩
    have hs : (mrun 2 59 ⟨S.z, S.f, S.g⟩).s = Divstep.run 2 59 S := mrun_s 2 59 S
    generalize mrun 2 59 ⟨S.z, S.f, S.g⟩ = mm at *
    rw [← hs] at hrr
    obtain ⟨r1, r2, r3, r4⟩ := hrr
    obtain ⟨i1, i2, i3, i4, i5⟩ := hinv
    have huv : |8 * mm.u| + |8 * mm.v| ≤ 2 ^ 62 := by
      rw [abs_mul, abs_mul]; norm_num at i3 ⊢; omega
    have hqr : |8 * mm.q| + |8 * mm.r| ≤ 2 ^ 62 := by
      rw [abs_mul, abs_mul]; norm_num at i4 ⊢; omega
    have bf' : |mm.s.f| ≤ 2 ^ 300 := by rw [abs_le]; constructor <;> omega
    have bg' : |mm.s.g| ≤ 2 ^ 300 := by rw [abs_le]; constructor <;> omega
    have x1 : 2 ^ 62 * mm.s.f = 8 * mm.u * f.int + 8 * mm.v * g.int := by
      rw [hf, hg]; linear_combination 8 * i1
    have x2 : 2 ^ 62 * mm.s.g = 8 * mm.q * f.int + 8 * mm.r * g.int := by
      rw [hf, hg]; linear_combination 8 * i2
    obtain ⟨d', e', vde, ede, ld', le', d1', d2', e1', e2', cd', ce', z'⟩ :=
      updateDe62V_ok hM (t := ⟨8 * mm.u, 8 * mm.v, 8 * mm.q, 8 * mm.r⟩) huv hqr ld le d1 d2 e1 e2
    obtain ⟨f', g', vfg, efg, hf', hg', lf', lg'⟩ :=
      updateFg62V_ok (t := ⟨8 * mm.u, 8 * mm.v, 8 * mm.q, 8 * mm.r⟩) huv hqr sf sg x1 bf' x2 bg'
    have sf' : f'.Small := lf'.small (by rw [hf']; exact bf')
    have sg' : g'.Small := lg'.small (by rw [hg']; exact bg')
    obtain ⟨d'', f'', g'', q0, q1, q2, q3, q4, q5, q6, q7, q8, q9⟩ := ih (by omega) (S := mm.s) (d := d')
      (e := e') (f := f') (g := g') (by rw [hs]; push_cast at hz hrz; omega) i5 hf' hg' r1 r2 r3 r4
      sf' sg' ld' le' d1' d2' e1' e2'
    have ck1 := fgCheck_ok hM sf sg (by rw [hf]; exact f1) (by rw [hf]; exact f2) (by rw [hg]; exact g1)
      (by rw [hg]; exact g2)
    have ck2 := fgCheck_ok hM sf' sg' (by rw [hf']; exact r1) (by rw [hf']; exact r2) (by rw [hg']; exact r3)
      (by rw [hg']; exact r4)
    refine ⟨d'', f'', g'', ?_, ?_, q2, q3, q4, ?_, ?_, q7, q8, ?_⟩
    · unfold modinv64LoopV
      exact bind_step hdv (bind_step vde (bind_step ck1 (bind_step vfg (bind_step ck2 q0))))
    · unfold modinv64Loop
      rw [hds]
      dsimp only
      rw [ede, Option.bind_some]
      dsimp only
      rw [efg, Option.bind_some]
      exact q1
    · rw [q5, hs, ← run_add, show 59 + 59 * k = 59 * (k + 1) by ring]
    · rw [q6, hs, ← run_add, show 59 + 59 * k = 59 * (k + 1) by ring]
    · intro h0 hg0
      have := hzero (by rw [← hg]; exact hg0)
      refine q9 (z' h0 ?_) ?_
      · dsimp only; rw [this.1]; ring
      · rw [hg', this.2]

theorem one_int : signed62One.int = 1 := by unfold signed62One S62.int; norm_num

theorem one_small : signed62One.Small := by
  unfold signed62One
  refine ⟨?_, ?_, ?_, ?_, ?_⟩ <;> norm_num

/-- Division steps keep the greatest common divisor. -/
theorem coprime_of_unit {κ : ℤ} {j : ℕ} {m x z : ℤ} (hm : m % 2 = 1)
    (h : (Divstep.run κ j ⟨z, m, x⟩).f = 1 ∨ (Divstep.run κ j ⟨z, m, x⟩).f = -1) : IsCoprime x m := by
  have hi := (mrun_inv κ (z := z) (G := x) hm j).f
  rw [mrun_s] at hi
  have h2 : IsCoprime m ((2 : ℤ) ^ j) := IsCoprime.pow_right ⟨1, -(m / 2), by omega⟩
  obtain ⟨a, b, hab⟩ := h2
  generalize mrun κ j ⟨z, m, x⟩ = mm at *
  rcases h with h | h <;> rw [h] at hi
  · exact ⟨b * mm.v, a + b * mm.u, by linear_combination hab - b * hi⟩
  · exact ⟨-(b * mm.v), a - b * mm.u, by linear_combination hab + b * hi⟩

/-- The checks at the end: they pass exactly if `x` is zero or has no common divisor with the modulus. -/
theorem finalCheck_iff {M : Modinfo} {m : ℤ} (hM : M.Ok m) {x d f g : S62} (sx : x.Small) (sd : d.Small)
    (sf : f.Small) (sg : g.Small) (ix : |x.int| ≤ 2 ^ 300) (id : |d.int| ≤ 2 ^ 300) (if' : |f.int| ≤ 2 ^ 300)
    (hg : g.int = 0) :
    finalCheck x d f g M = if f.int = -1 ∨ f.int = 1 ∨ (x.int = 0 ∧ d.int = 0 ∧ f.int = m) then some () else none := by
  have hm1 := hM.ge
  have hm2 := hM.le
  have i1 : |signed62One.int| ≤ 2 ^ 300 := by rw [one_int, abs_le]; constructor <;> omega
  have im : |M.modulus.int| ≤ 2 ^ 300 := by rw [hM.val, abs_le]; constructor <;> omega
  have ig : |g.int| ≤ 2 ^ 300 := by rw [hg, abs_le]; constructor <;> omega
  obtain ⟨cg, eg, -, g0, -⟩ := mulCmp62_ok sg one_small (k := 0) (by norm_num) ig i1
  obtain ⟨c1, e1, -, h1, -⟩ := mulCmp62_ok sf one_small (k := -1) (by norm_num) if' i1
  obtain ⟨c2, e2, -, h2, -⟩ := mulCmp62_ok sf one_small (k := 1) (by norm_num) if' i1
  obtain ⟨c3, e3, -, h3, -⟩ := mulCmp62_ok sx one_small (k := 0) (by norm_num) ix i1
  obtain ⟨c4, e4, -, h4, -⟩ := mulCmp62_ok sd one_small (k := 0) (by norm_num) id i1
  obtain ⟨c5, e5, -, h5, -⟩ := mulCmp62_ok sf hM.small (k := 1) (by norm_num) if' im
  rw [one_int] at g0 h1 h2 h3 h4
  rw [hM.val] at h5
  unfold finalCheck
  refine bind_step eg (bind_step (check_true (by rw [decide_eq_true_eq]; exact g0.mpr (by rw [hg]; ring))) ?_)
  refine bind_step e1 ?_
  by_cases a1 : c1 = 0
  · rw [if_pos a1, if_pos (Or.inl (by rw [h1.mp a1]; ring))]
  rw [if_neg a1]
  refine bind_step e2 ?_
  by_cases a2 : c2 = 0
  · rw [if_pos a2, if_pos (Or.inr (Or.inl (by rw [h2.mp a2]; ring)))]
  rw [if_neg a2]
  have n1 : ¬ f.int = -1 := fun h => a1 (h1.mpr (by rw [h]; ring))
  have n2 : ¬ f.int = 1 := fun h => a2 (h2.mpr (by rw [h]; ring))
  refine bind_step e3 ?_
  have cf : ∀ {c : ℤ}, c ≠ 0 → check (decide (c = 0)) = none := by
    intro c hc
    rw [decide_eq_false hc]; rfl
  have none_bind : ∀ {β : Type} {c : ℤ} (hc : c ≠ 0) (k : Unit → Option β), (check (decide (c = 0)) >>= k) = none := by
    intro β c hc k
    rw [cf hc]; rfl
  by_cases a3 : c3 = 0
  · refine bind_step (check_true (by rw [decide_eq_true_eq]; exact a3)) (bind_step e4 ?_)
    have x0 : x.int = 0 := by have := h3.mp a3; rwa [zero_mul] at this
    by_cases a4 : c4 = 0
    · refine bind_step (check_true (by rw [decide_eq_true_eq]; exact a4)) (bind_step e5 ?_)
      have d0 : d.int = 0 := by have := h4.mp a4; rwa [zero_mul] at this
      by_cases a5 : c5 = 0
      · rw [check_true (by rw [decide_eq_true_eq]; exact a5)]
        have f0 : f.int = m := by have := h5.mp a5; rwa [one_mul] at this
        rw [if_pos (Or.inr (Or.inr ⟨x0, d0, f0⟩))]
      · rw [cf a5, if_neg]
        rintro (h | h | ⟨-, -, h⟩)
        · exact n1 h
        · exact n2 h
        · exact a5 (h5.mpr (by rw [one_mul]; exact h))
    · rw [none_bind a4, if_neg]
      rintro (h | h | ⟨-, h, -⟩)
      · exact n1 h
      · exact n2 h
      · exact a4 (h4.mpr (by rw [zero_mul]; exact h))
  · rw [none_bind a3, if_neg]
    rintro (h | h | ⟨h, -, -⟩)
    · exact n1 h
    · exact n2 h
    · exact a3 (h3.mpr (by rw [zero_mul]; exact h))

/-- The constant-time inversion with its checks. -/
theorem modinv64V_iff {M : Modinfo} {m : ℤ} (hM : M.Ok m) {x : S62} (hx : x.Canon) (h1 : x.int < m) :
    ((x.int = 0 ∨ IsCoprime x.int m) → modinv64V x M = modinv64 x M) ∧
    (¬ (x.int = 0 ∨ IsCoprime x.int m) → modinv64V x M = none) := by
  have hm1 := hM.ge
  have hm2 := hM.le
  have h0 : 0 ≤ x.int := by
    obtain ⟨a, b, c, d, e⟩ := hx
    unfold S62.int
    omega
  obtain ⟨d, f, g, e0, e1, e2, e3, e4, e5, e6, e7, e8, e9⟩ := modinv64LoopV_ok hM 10 (le_refl _)
    (S := ⟨-1, m, x.int⟩) (d := ⟨0, 0, 0, 0, 0⟩) (e := ⟨1, 0, 0, 0, 0⟩) (f := M.modulus) (g := x)
    (by norm_num) hM.odd hM.val rfl (by dsimp only; omega) (le_refl _) (by dsimp only; omega) h1 hM.small hx.small
    ⟨by norm_num, by norm_num, by norm_num, by norm_num⟩
    ⟨by norm_num, by norm_num, by norm_num, by norm_num⟩
    (by simp [S62.int]; omega) (by simp [S62.int]; omega) (by simp [S62.int]; omega)
    (by simp [S62.int]; omega)
  rw [show 59 * 10 = 590 from rfl] at e5 e6
  have hr := reach2 hM.odd h0 h1.le hm2
  rw [hr] at e6
  have rr := run_range 2 590 (s := ⟨-1, m, x.int⟩) (m := m) hM.odd (by dsimp only; omega) (le_refl _)
    (by dsimp only; omega) h1
  have id : |d.int| ≤ 2 ^ 300 := by rw [abs_le]; constructor <;> omega
  have if' : |f.int| ≤ 2 ^ 300 := by rw [e5, abs_le]; constructor <;> omega
  have fc := finalCheck_iff hM hx.small (e2.small id) e7 e8 (by rw [abs_le]; constructor <;> omega) id if' e6
  constructor
  · intro hc
    have hcond : f.int = -1 ∨ f.int = 1 ∨ (x.int = 0 ∧ d.int = 0 ∧ f.int = m) := by
      rcases hc with hc | hc
      · refine Or.inr (Or.inr ⟨hc, e9 (by simp [S62.int]) hc, ?_⟩)
        rw [e5, hc, run_g_zero]
      · rcases unit_of_run (j := 590) hM.odd hc hr with h | h
        · exact Or.inr (Or.inl (by rw [e5, h]))
        · exact Or.inl (by rw [e5, h])
    rw [if_pos hcond] at fc
    have s4 := e7.v4
    rw [abs_le] at s4
    unfold modinv64V
    refine bind_step e0 (bind_step fc ?_)
    dsimp only
    rw [normalize62V_ok hM e2 e3 e4 (by omega) (by omega)]
    unfold modinv64
    rw [e1, Option.bind_some]
  · intro hc
    rw [if_neg] at fc
    · unfold modinv64V
      refine bind_step e0 ?_
      dsimp only
      rw [fc]
      rfl
    · rintro (h | h | ⟨h, -, -⟩)
      · exact hc (Or.inr (coprime_of_unit hM.odd (Or.inr (by rw [← h, e5]))))
      · exact hc (Or.inr (coprime_of_unit hM.odd (Or.inl (by rw [← h, e5]))))
      · exact hc (Or.inl h)

end Secp.Model.Verify
