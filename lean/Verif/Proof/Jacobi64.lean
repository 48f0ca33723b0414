import Verif.Proof.Modinv64Var
import Mathlib.NumberTheory.LegendreSymbol.JacobiSymbol

/-! # The Jacobi symbol by 62 steps at a time -/

namespace Secp.Model
open Secp.Divstep
open scoped NumberTheorySymbols

/-! ### The sign -/

theorem neg_one_pow_of_mod {a b : ℕ} (h : a % 2 = b % 2) : (-1 : ℤ) ^ a = (-1) ^ b := by
  rw [neg_one_pow_eq_pow_mod_two, h, ← neg_one_pow_eq_pow_mod_two]

theorem xor_mod_two' (a b : ℕ) : (a ^^^ b) % 2 = (a + b) % 2 := by
  rw [show (2 : ℕ) = 2 ^ 1 from rfl, Nat.xor_mod_two_pow, Nat.add_mod, pow_one]
  rcases Nat.mod_two_eq_zero_or_one a with h | h <;>
    rcases Nat.mod_two_eq_zero_or_one b with h' | h' <;> rw [h, h'] <;> rfl

theorem sign_xor (a b : ℕ) : (-1 : ℤ) ^ ((a ^^^ b) % 2 ^ 32) = (-1) ^ a * (-1) ^ b := by
  rw [← pow_add]
  apply neg_one_pow_of_mod
  have h1 : (a ^^^ b) % 2 ^ 32 % 2 = (a ^^^ b) % 2 := by omega
  rw [h1, xor_mod_two']

/-- Removing powers of two. -/
theorem jac_shift {f : ℕ} (hf : f % 2 = 1) (c : ℕ) (g : ℤ) {f' : ℕ} (h : f' % 8 = f % 8) :
    J(2 ^ c * g | f) = (-1 : ℤ) ^ (c &&& ((f' >>> 1) ^^^ (f' >>> 2))) * J(g | f) := by
  have ho : Odd f := Nat.odd_iff.mpr hf
  have h2 : J(2 | f) = (-1 : ℤ) ^ ((f' >>> 1) ^^^ (f' >>> 2)) := by
    rw [jacobiSym.at_two ho, ZMod.χ₈_nat_eq_if_mod_eight, if_neg (by omega),
      neg_one_pow_of_mod (xor_mod_two' _ _), Nat.shiftRight_eq_div_pow, Nat.shiftRight_eq_div_pow,
      neg_one_pow_eq_pow_mod_two]
    have h3 : f % 8 = 1 ∨ f % 8 = 3 ∨ f % 8 = 5 ∨ f % 8 = 7 := by omega
    rcases h3 with h3 | h3 | h3 | h3
    · rw [if_pos (by omega), show (f' / 2 ^ 1 + f' / 2 ^ 2) % 2 = 0 by omega]; rfl
    · rw [if_neg (by omega), show (f' / 2 ^ 1 + f' / 2 ^ 2) % 2 = 1 by omega]; rfl
    · rw [if_neg (by omega), show (f' / 2 ^ 1 + f' / 2 ^ 2) % 2 = 1 by omega]; rfl
    · rw [if_pos (by omega), show (f' / 2 ^ 1 + f' / 2 ^ 2) % 2 = 0 by omega]; rfl
  rw [jacobiSym.mul_left, jacobiSym.pow_left, h2, ← pow_mul]
  congr 1
  apply neg_one_pow_of_mod
  generalize (f' >>> 1) ^^^ (f' >>> 2) = e
  have h4 : (c &&& e) % 2 = (c % 2) * (e % 2) := by
    rw [show (2 : ℕ) = 2 ^ 1 from rfl, Nat.and_mod_two_pow]
    rcases Nat.mod_two_eq_zero_or_one c with a | a <;>
      rcases Nat.mod_two_eq_zero_or_one e with b | b <;> simp [a, b]
  rw [h4, Nat.mul_mod]
  rcases Nat.mod_two_eq_zero_or_one c with a | a <;>
    rcases Nat.mod_two_eq_zero_or_one e with b | b <;> simp [a, b]

/-- Exchanging two odd numbers. -/
theorem jac_swap {f g : ℕ} (hf : f % 2 = 1) (hg : g % 2 = 1) {f' g' : ℕ} (h : f' % 4 = f % 4)
    (h' : g' % 4 = g % 4) : J(g | f) = (-1 : ℤ) ^ ((g' &&& f') >>> 1) * J(f | g) := by
  rw [jacobiSym.quadratic_reciprocity (Nat.odd_iff.mpr hg) (Nat.odd_iff.mpr hf)]
  congr 1
  apply neg_one_pow_of_mod
  have h4 : ((g' &&& f') >>> 1) % 2 = (g' / 2 % 2) * (f' / 2 % 2) := by
    rw [Nat.shiftRight_and_distrib, Nat.shiftRight_eq_div_pow, Nat.shiftRight_eq_div_pow, pow_one,
      show (2 : ℕ) = 2 ^ 1 from rfl, Nat.and_mod_two_pow, pow_one]
    rcases Nat.mod_two_eq_zero_or_one (g' / 2) with a | a <;>
      rcases Nat.mod_two_eq_zero_or_one (f' / 2) with b | b <;> simp [a, b]
  rw [h4, Nat.mul_mod, show g / 2 % 2 = g' / 2 % 2 by omega, show f / 2 % 2 = f' / 2 % 2 by omega]
  rcases Nat.mod_two_eq_zero_or_one (g' / 2) with a | a <;>
    rcases Nat.mod_two_eq_zero_or_one (f' / 2) with b | b <;> simp [a, b]

theorem jac_add (f : ℕ) (g w : ℤ) : J(g + w * f | f) = J(g | f) := by
  apply jacobiSym.mod_left'
  exact Int.add_mul_emod_self_right g w f

/-! ### Sixty-two steps -/

theorem Cong.mod8 {k a f : ℕ} (h : Cong k a (f : ℤ)) (hk : 3 ≤ k) : a % 8 = f % 8 := by
  have := h.mono hk
  unfold Cong at this
  have h2 : (a : ℤ) % 2 ^ 3 = f % 2 ^ 3 := this
  omega

theorem shiftZeros_spec2 {i L : ℕ} (hi : i ≤ 62) (hL : L ≤ i) {s : DivVars} {z f g' u v q r : ℤ}
    (hz : |z| ≤ 2 ^ 30) (h : VRel (i + 2) s ⟨⟨z, f, 2 ^ L * g'⟩, u, v, q, r⟩) :
    ∃ (t : DivVars) (k : ℕ) (g'' : ℤ), shiftZeros s i = some (t, i - k, k) ∧ L ≤ k ∧ k ≤ i ∧
      g' = 2 ^ (k - L) * g'' ∧ (k < i → g'' % 2 = 1) ∧ t.f = s.f ∧
      VRel (i - k + 2) t ⟨⟨z - k, f, g''⟩, 2 ^ k * u, 2 ^ k * v, q, r⟩ := by
  obtain ⟨k, e, hk, hd, hodd, hmax⟩ := zeros_spec (g := s.g) hi
  have hLg : 2 ^ L ∣ s.g := by
    have h1 : Cong L s.g (2 ^ L * g') := h.g.mono (by omega)
    unfold Cong at h1
    have h2 : (2 : ℤ) ^ L ∣ s.g := (Int.ModEq.dvd_iff h1).mpr (Dvd.intro _ rfl)
    exact_mod_cast h2
  have hLk := hmax L hL hLg
  obtain ⟨g'', hg''⟩ : ∃ g'', 2 ^ L * g' = 2 ^ k * g'' := by
    have h1 : Cong k s.g (2 ^ L * g') := h.g.mono (by omega)
    unfold Cong at h1
    have h2 : (2 : ℤ) ^ k ∣ s.g := by exact_mod_cast hd
    exact (Int.ModEq.dvd_iff h1).mp h2
  have hg' : g' = 2 ^ (k - L) * g'' := by
    have : (2 : ℤ) ^ L * g' = 2 ^ L * (2 ^ (k - L) * g'') := by
      rw [hg'', ← mul_assoc, ← pow_add, show L + (k - L) = k by omega]
    exact mul_left_cancel₀ (by positivity) this
  have hgc := shr_cong (i := i + 2) (by omega) h.g hg'' hd
  rw [show i + 2 - k = i - k + 2 by omega] at hgc
  refine ⟨⟨s.z - k, s.f, s.g >>> k, u64 (s.u <<< k), u64 (s.v <<< k), s.q, s.r⟩, k, g'', ?_, hLk, hk,
    hg', ?_, rfl, ?_⟩
  · unfold shiftZeros
    dsimp only
    rw [e, if_pos hk]
    have hz' := h.z
    dsimp only at hz'
    rw [abs_le] at hz
    rw [i64?_some (by omega) (by omega), Option.bind_some]
  · intro hlt
    have h1 := hodd hlt
    have h2 := hgc.parity (by omega)
    rw [Nat.shiftRight_eq_div_pow] at h2
    omega
  · refine ⟨⟨h.w.fl, ?_, u64_lt _, u64_lt _, h.w.ql, h.w.rl⟩, ?_, h.f.mono (by omega), hgc,
      shl_cong h.u, shl_cong h.v, h.q, h.r⟩
    · dsimp only
      rw [Nat.shiftRight_eq_div_pow]
      exact lt_of_le_of_lt (Nat.div_le_self _ _) h.w.gl
    · have hz' := h.z
      dsimp only at hz' ⊢
      rw [hz']

/-- A row of the matrix: non-negative, bounded by `2^k`, and giving `2^k x` from the start values. -/
structure PRow (F0 G0 : ℤ) (k : ℕ) (u v x : ℤ) : Prop where
  u0 : 0 ≤ u
  v0 : 0 ≤ v
  le : u + v ≤ 2 ^ k
  eq : u * F0 + v * G0 = 2 ^ k * x

theorem PRow.shift {F0 G0 : ℤ} {k : ℕ} {u v x : ℤ} (h : PRow F0 G0 k u v x) (c : ℕ) :
    PRow F0 G0 (k + c) (2 ^ c * u) (2 ^ c * v) x := by
  obtain ⟨h1, h2, h3, h4⟩ := h
  have hp : (0 : ℤ) < 2 ^ c := by positivity
  refine ⟨by positivity, by positivity, ?_, ?_⟩
  · rw [pow_add, ← mul_add, mul_comm ((2 : ℤ) ^ k)]
    exact mul_le_mul_of_nonneg_left h3 hp.le
  · rw [pow_add]; linear_combination 2 ^ c * h4

theorem PRow.mono {F0 G0 : ℤ} {k : ℕ} {u v x : ℤ} {c : ℕ} (h : PRow F0 G0 k u v (2 ^ c * x)) :
    PRow F0 G0 (k + c) u v x := by
  obtain ⟨h1, h2, h3, h4⟩ := h
  refine ⟨h1, h2, h3.trans ?_, by rw [h4, pow_add]; ring⟩
  exact pow_le_pow_right₀ (by norm_num) (by omega)

theorem PRow.add {F0 G0 : ℤ} {k : ℕ} {u v x q r y g : ℤ} {w L : ℕ} (h : PRow F0 G0 k u v x)
    (h' : PRow F0 G0 k q r y) (hw : w < 2 ^ L) (hg : 2 ^ L * g = y + w * x) :
    PRow F0 G0 (k + L) (q + w * u) (r + w * v) g := by
  obtain ⟨h1, h2, h3, h4⟩ := h
  obtain ⟨g1, g2, g3, g4⟩ := h'
  have hw' : (w : ℤ) + 1 ≤ 2 ^ L := by exact_mod_cast hw
  refine ⟨by positivity, by positivity, ?_, ?_⟩
  · have hp : (0 : ℤ) ≤ 2 ^ k := by positivity
    have a1 : (w : ℤ) * (u + v) ≤ w * 2 ^ k := mul_le_mul_of_nonneg_left h3 (by positivity)
    have a2 : ((w : ℤ) + 1) * 2 ^ k ≤ 2 ^ L * 2 ^ k := mul_le_mul_of_nonneg_right hw' hp
    rw [pow_add]
    linarith
  · rw [pow_add]; linear_combination g4 + w * h4 - 2 ^ k * hg

theorem posLoop_spec (k : ℕ) {F0 G0 : ℤ} : ∀ {i L : ℕ} {s : DivVars} {z : ℤ} {f : ℕ} {g' u v q r : ℤ}
    {jac : ℕ}, 1 ≤ i → i ≤ 62 → L ≤ i → (i < k ∨ (1 ≤ L ∧ i ≤ k)) → |z| + 2 * i ≤ 2 ^ 29 →
    f % 2 = 1 → 0 ≤ g' → PRow F0 G0 (62 - i) u v f → PRow F0 G0 (62 - i + L) q r g' →
    VRel (i + 2) s ⟨⟨z, f, 2 ^ L * g'⟩, u, v, q, r⟩ →
    ∃ (t : DivVars) (jac' : ℕ) (z' : ℤ) (f1 : ℕ) (g1 u1 v1 q1 r1 : ℤ),
      posdivsteps62VarLoop k s i jac = some (t, jac') ∧ |z'| ≤ |z| + i ∧ f1 % 2 = 1 ∧ 0 ≤ g1 ∧
      PRow F0 G0 62 u1 v1 f1 ∧ PRow F0 G0 62 q1 r1 g1 ∧
      VRel 2 t ⟨⟨z', f1, g1⟩, u1, v1, q1, r1⟩ ∧
      (-1) ^ jac * J(2 ^ L * g' | f) = (-1) ^ jac' * J(g1 | f1) := by
  induction k with
  | zero => intro i L s z f g' u v q r jac _ _ h1 h2; omega
  | succ k ih =>
    intro i L s z f g' u v q r jac hi1 hi hL hk hz hf hg0 hu hq h
    have hz0 : |z| ≤ 2 ^ 29 := by omega
    obtain ⟨t, c, g'', e, hLc, hc, hg, hodd, etf, ht⟩ := shiftZeros_spec2 hi hL (by omega) h
    have hg''0 : 0 ≤ g'' := by
      rw [hg] at hg0
      exact nonneg_of_mul_nonneg_right hg0 (by positivity)
    have hpow : (2 : ℤ) ^ L * g' = 2 ^ c * g'' := by
      rw [hg, ← mul_assoc, ← pow_add, show L + (c - L) = c by omega]
    have hf8 : s.f % 8 = f % 8 := h.f.mod8 (by omega)
    have hu' := hu.shift c
    have hq' : PRow F0 G0 (62 - (i - c)) q r g'' := by
      rw [hg] at hq
      have := hq.mono
      rwa [show 62 - i + L + (c - L) = 62 - (i - c) by omega] at this
    rw [show 62 - i + c = 62 - (i - c) by omega] at hu'
    -- the sign after the shift
    obtain ⟨jac1, hj1⟩ : ∃ jac1, jac1 = (jac ^^^ (c &&& ((t.f >>> 1) ^^^ (t.f >>> 2)))) % 2 ^ 32 := ⟨_, rfl⟩
    have hsgn : (-1) ^ jac * J(2 ^ L * g' | f) = (-1) ^ jac1 * J(g'' | f) := by
      rw [hj1, sign_xor, etf, hpow, jac_shift hf c g'' hf8, mul_assoc]
    unfold posdivsteps62VarLoop
    rw [e, Option.bind_some]
    dsimp only
    rw [← hj1]
    have hzc : |z - (c : ℤ)| ≤ |z| + c := by
      have := abs_sub z (c : ℤ)
      rwa [abs_of_nonneg (Int.natCast_nonneg c)] at this
    by_cases hi0 : i - c = 0
    · rw [if_pos hi0]
      rw [hi0] at ht hu' hq'
      exact ⟨t, jac1, z - c, f, g'', _, _, _, _, rfl, by omega, hf, hg''0, hu', hq', ht, hsgn⟩
    rw [if_neg hi0]
    have hgo := hodd (by omega)
    obtain ⟨gn, rfl⟩ : ∃ gn : ℕ, g'' = gn := ⟨g''.toNat, by omega⟩
    have tz : t.z = z - c := ht.z
    have hfo : t.f % 2 = 1 := by
      have := ht.f.parity (by omega); dsimp only at this; omega
    have hgo' : t.g % 2 = 1 := by
      have := ht.g.parity (by omega); dsimp only at this; omega
    rw [abs_le] at hz0
    by_cases hneg : t.z < 0
    · rw [if_pos hneg, i64?_some (by omega) (by omega), Option.bind_some]
      obtain ⟨L', l1, l2, l3, l4, hm⟩ := limitMask_spec (eta := -t.z) (i := i - c) (t := 6) (by omega)
        (by omega) (by omega) (by omega) (Or.inr rfl)
      rw [show (63 : ℕ) = 2 ^ 6 - 1 from rfl, hm, Option.bind_some]
      have hsw : VRel (i - c + 2) ⟨-t.z, t.g, t.f, t.q, t.r, t.u, t.v⟩
          ⟨⟨-(z - c), (gn : ℤ), (f : ℤ)⟩, q, r, 2 ^ c * u, 2 ^ c * v⟩ := by
        refine ⟨⟨ht.w.gl, ht.w.fl, ht.w.ql, ht.w.rl, ht.w.ul, ht.w.vl⟩, ?_, ht.g, ht.f, ht.q, ht.r,
          ht.u, ht.v⟩
        dsimp only; rw [tz]
      obtain ⟨w1, w2⟩ := cancel6_spec (f := t.g) (g := t.f) hgo' l4
      generalize cancel6 t.g t.f (2 ^ L' - 1) = w at *
      have hcl := cong_clear (c := w) hsw.f hsw.g (by omega) w2
      dsimp only at hcl
      obtain ⟨g3, hg3⟩ := hcl
      have hadd := addMultiple_rel (w := w) (by omega) hsw
      rw [hg3] at hadd
      have hg3' : 0 ≤ g3 := by
        have : (0 : ℤ) ≤ 2 ^ L' * g3 := by rw [← hg3]; positivity
        exact nonneg_of_mul_nonneg_right this (by positivity)
      have hr := hq'.add hu' w1 hg3.symm
      obtain ⟨t', jac', z', f1, g1, u1, v1, q1, r1, et', hz', a1, a2, a3, a4, a5, a6⟩ := ih (i := i - c)
        (L := L') (jac := (jac1 ^^^ ((t.g &&& t.f) >>> 1)) % 2 ^ 32) (by omega) (by omega) l2 (by omega)
        (by rw [abs_neg]; omega) (by omega) hg3' hq' hr hadd
      refine ⟨t', jac', z', f1, g1, u1, v1, q1, r1, et', ?_, a1, a2, a3, a4, a5, ?_⟩
      · rw [abs_neg] at hz'; omega
      · rw [hsgn, ← a6, sign_xor, ← hg3, jac_add, mul_assoc]
        congr 1
        have m1 : t.f % 8 = f % 8 := etf ▸ hf8
        have m2 : t.g % 8 = gn % 8 := ht.g.mod8 (by omega)
        exact jac_swap hf (by omega) (by omega) (by omega)
    · rw [if_neg hneg]
      obtain ⟨L', l1, l2, l3, l4, hm⟩ := limitMask_spec (eta := t.z) (i := i - c) (t := 4) (by omega)
        (by omega) (by omega) (by omega) (Or.inl rfl)
      rw [show (15 : ℕ) = 2 ^ 4 - 1 from rfl, hm, Option.bind_some]
      obtain ⟨w1, w2⟩ := cancel4_spec (f := t.f) (g := t.g) hfo l4
      generalize cancel4 t.f t.g (2 ^ L' - 1) = w at *
      have hcl := cong_clear (c := w) ht.f ht.g (by omega) w2
      dsimp only at hcl
      obtain ⟨g3, hg3⟩ := hcl
      have hadd := addMultiple_rel (w := w) (by omega) ht
      rw [hg3] at hadd
      have hg3' : 0 ≤ g3 := by
        have : (0 : ℤ) ≤ 2 ^ L' * g3 := by rw [← hg3]; positivity
        exact nonneg_of_mul_nonneg_right this (by positivity)
      have hr := hu'.add hq' w1 hg3.symm
      obtain ⟨t', jac', z', f1, g1, u1, v1, q1, r1, et', hz', a1, a2, a3, a4, a5, a6⟩ := ih (i := i - c)
        (L := L') (jac := jac1) (by omega) (by omega) l2 (by omega) (by omega) hf hg3' hu' hr hadd
      refine ⟨t', jac', z', f1, g1, u1, v1, q1, r1, et', by omega, a1, a2, a3, a4, a5, ?_⟩
      rw [hsgn, ← a6, ← hg3, jac_add]

/-- The 62 steps: a non-negative matrix that divides out `2^62`, and the change of the symbol. -/
theorem posdivsteps62Var_spec {z G : ℤ} {f0 g0 F jac : ℕ} (hF : F % 2 = 1) (hG : 0 ≤ G)
    (hz : |z| ≤ 2 ^ 20) (hf0 : f0 < 2 ^ 64) (hg0 : g0 < 2 ^ 64) (hf : Cong 64 f0 F) (hg : Cong 64 g0 G) :
    ∃ (z' : ℤ) (jac' f1 : ℕ) (g1 u1 v1 q1 r1 : ℤ),
      posdivsteps62Var z f0 g0 jac = some (z', ⟨u1, v1, q1, r1⟩, jac') ∧ |z'| ≤ |z| + 62 ∧
      f1 % 2 = 1 ∧ 0 ≤ g1 ∧ PRow F G 62 u1 v1 f1 ∧ PRow F G 62 q1 r1 g1 ∧
      (-1) ^ jac * J(G | F) = (-1) ^ jac' * J(g1 | f1) := by
  obtain ⟨t, jac', z', f1, g1, u1, v1, q1, r1, e, a1, a2, a3, a4, a5, a6, a7⟩ := posLoop_spec 63
    (F0 := F) (G0 := G) (i := 62) (L := 0) (s := ⟨z, f0, g0, 1, 0, 0, 1⟩) (z := z) (f := F) (g' := G)
    (u := 1) (v := 0) (q := 0) (r := 1) (jac := jac) (by norm_num) (le_refl _) (by norm_num)
    (Or.inl (by norm_num)) (by push_cast; omega) hF hG ⟨by norm_num, by norm_num, by norm_num, by simp⟩
    ⟨by norm_num, by norm_num, by norm_num, by simp⟩
    ⟨⟨hf0, hg0, by norm_num, by norm_num, by norm_num, by norm_num⟩, rfl, hf,
      by rw [pow_zero, one_mul]; exact hg, Cong.of_eq rfl, Cong.of_eq rfl, Cong.of_eq rfl, Cong.of_eq rfl⟩
  refine ⟨z', jac', f1, g1, u1, v1, q1, r1, ?_, by exact_mod_cast a1, a2, a3, a4, a5, ?_⟩
  · unfold posdivsteps62Var
    rw [e, Option.bind_some]
    dsimp only
    have key : ∀ x y : ℤ, 0 ≤ x → 0 ≤ y → x + y ≤ 2 ^ 62 → -2 ^ 63 ≤ x ∧ x < 2 ^ 63 := by
      intro x y _ _ _; omega
    have hu := key _ _ a4.u0 a4.v0 a4.le
    have hv := key _ _ a4.v0 a4.u0 (by have := a4.le; omega)
    have hq := key _ _ a5.u0 a5.v0 a5.le
    have hr := key _ _ a5.v0 a5.u0 (by have := a5.le; omega)
    unfold DivVars.trans
    rw [a6.z, a6.u.toI64 hu.1 hu.2, a6.v.toI64 hv.1 hv.2, a6.q.toI64 hq.1 hq.2, a6.r.toI64 hr.1 hr.2]
  · rw [pow_zero, one_mul] at a7
    exact a7

/-! ### The outer loop -/

theorem low64_lt (v : List ℤ) : low64 v < 2 ^ 64 :=
  Nat.or_lt_two_pow (toU64_lt _) (u64_lt _)

/-- The low 64 bits are right if the lowest limb is not negative or the next one is zero. -/
theorem low64_cong {a b : ℤ} {l B : List ℤ} (ha : a < 2 ^ 62) (ha' : 0 ≤ a ∨ (-2 ^ 62 < a ∧ b = 0)) :
    Cong 64 (low64 (a :: b :: l ++ B)) (limbsInt (a :: b :: l)) := by
  have e : low64 (a :: b :: l ++ B) = toU64 a ||| u64 (toU64 b <<< 62) := rfl
  have e2 : limbsInt (a :: b :: l) = a + 2 ^ 62 * b + 2 ^ 64 * (2 ^ 60 * limbsInt l) := by
    simp only [limbsInt]; ring
  have key : Cong 64 (toU64 a ||| u64 (toU64 b <<< 62)) (a + 2 ^ 62 * b) := by
    rcases ha' with h0 | ⟨-, rfl⟩
    · have h1 : toU64 a < 2 ^ 62 := by unfold toU64; omega
      have h2 : u64 (toU64 b <<< 62) = 2 ^ 62 * (toU64 b % 4) := by
        unfold u64; rw [Nat.shiftLeft_eq]; omega
      rw [h2, Nat.or_comm, ← Nat.two_pow_add_eq_or_of_lt h1]
      have h3 := toU64_cast a
      have h4 := toU64_cast b
      unfold Cong
      rw [Int.modEq_iff_dvd]
      push_cast
      omega
    · have h2 : u64 (toU64 0 <<< 62) = 0 := by decide
      rw [h2, Nat.or_zero]
      exact (cong_toU64 a (le_refl _)).congr (by ring)
  rw [e, e2]
  refine key.trans ?_
  rw [Int.modEq_iff_dvd]
  exact ⟨2 ^ 60 * limbsInt l, by ring⟩

theorem low64_low {A B : List ℤ} (hA : LowL A) (h0 : 0 ≤ limbsInt A) (hB : ∀ b ∈ B, b = 0) :
    Cong 64 (low64 (A ++ B)) (limbsInt A) := by
  cases A with
  | nil => exact absurd hA (by simp [LowL])
  | cons a l =>
    cases l with
    | nil =>
      have e : low64 ([a] ++ B) = toU64 a := by
        unfold low64
        have hb : ([a] ++ B).getD 1 0 = 0 := by
          cases B with
          | nil => rfl
          | cons b B => exact hB b (by simp)
        rw [hb, show u64 (toU64 0 <<< 62) = 0 by decide, Nat.or_zero]
        rfl
      rw [e]
      exact (cong_toU64 a (le_refl _)).congr (by simp [limbsInt])
    | cons b l => exact low64_cong hA.1.2 (Or.inl hA.1.1)

/-- The test for `f = 1`. -/
theorem fone_iff {A B : List ℤ} (hA : LowL A) :
    ((A ++ B).getD 0 0 = 1 ∧ orLimbs A.length (A ++ B) = 0) ↔ limbsInt A = 1 := by
  cases A with
  | nil => exact absurd hA (by simp [LowL])
  | cons a l =>
    have hs := hA.small
    have hr : ∀ b ∈ l, -2 ^ 63 ≤ b ∧ b < 2 ^ 63 := by
      intro b hb
      have := hs b (by simp [hb])
      rw [abs_le] at this
      omega
    unfold orLimbs
    rw [List.take_left]
    have e : (a :: l).drop 1 = l := rfl
    rw [e, orFold_zero hr (by norm_num) (by norm_num)]
    have e0 : (a :: l ++ B).getD 0 0 = a := rfl
    have e1 : limbsInt (a :: l) = a + 2 ^ 62 * limbsInt l := rfl
    rw [e0, e1]
    cases l with
    | nil => simp [limbsInt]
    | cons b l =>
      have hz := LowL.zero hA.2
      have ha := hA.1
      constructor
      · rintro ⟨h1, -, h2⟩
        rw [h1, hz.mpr h2]; norm_num
      · intro h
        have h2 : limbsInt (b :: l) = 0 := by omega
        exact ⟨by omega, rfl, hz.mp h2⟩

theorem jacShrink_iff {len : ℕ} {fn gn : ℤ} (hlen : len ≤ 5) (hf : |fn| ≤ 2 ^ 62) (hg : |gn| ≤ 2 ^ 62) :
    or64 (or64 (((len : ℤ) - 2) / 2 ^ 63) fn) gn = 0 ↔ 2 ≤ len ∧ fn = 0 ∧ gn = 0 := by
  rw [abs_le] at hf hg
  obtain ⟨r1, r2⟩ := or64_range (((len : ℤ) - 2) / 2 ^ 63) fn
  rw [or64_eq_zero r1 r2 (by omega) (by omega), or64_eq_zero (by omega) (by omega) (by omega) (by omega)]
  have : ((len : ℤ) - 2) / 2 ^ 63 = 0 ↔ 2 ≤ len := by omega
  rw [this]
  exact and_assoc

/-- Forgetting a top limb that is zero. -/
theorem dropTop_spec {A : List ℤ} (hA : LowL A) (h2 : 2 ≤ A.length) (hne : A ≠ [])
    (ht : A.getLast hne = 0) :
    ∃ A', A = A' ++ [0] ∧ A'.length = A.length - 1 ∧ LowL A' ∧ limbsInt A' = limbsInt A ∧
      |limbsInt A'| ≤ (2 ^ 62) ^ A'.length := by
  obtain ⟨l, a, s, rfl⟩ : ∃ l a s, A = l ++ [a, s] := by
    have hne2 : A.dropLast ≠ [] := by
      intro h
      have := congrArg List.length h
      simp at this
      omega
    refine ⟨A.dropLast.dropLast, A.dropLast.getLast hne2, A.getLast hne, ?_⟩
    have e1 := List.dropLast_append_getLast hne2
    have e2 := List.dropLast_append_getLast hne
    conv_lhs => rw [← e2, ← e1]
    simp
  have hs : s = 0 := by simpa using ht
  subst hs
  obtain ⟨h1, h3, h4⟩ := hA.merge (Or.inl rfl)
  rw [zero_mul, add_zero] at h3 h4
  have hb := limbsInt_bound (A := l ++ [a]) (by simp) h3 (by
    rw [List.getLast_append_singleton]; omega)
  exact ⟨l ++ [a], by simp, by simp, h3, h4, by rw [abs_le]; omega⟩

/-- The state of the loop: `f` and `g` in the first `len` limbs, zeros behind them. -/
structure JacState (m : ℤ) (F : ℕ) (G : ℤ) (len : ℕ) (f g A A' B B' : List ℤ) : Prop where
  odd : F % 2 = 1
  g0 : 0 ≤ G
  len5 : len ≤ 5
  hf : f = A ++ B
  hg : g = A' ++ B'
  lA : A.length = len
  lA' : A'.length = len
  ne : A ≠ []
  vf : limbsInt A = F
  vg : limbsInt A' = G
  cf : |(F : ℤ)| ≤ (2 ^ 62) ^ len
  cg : |G| ≤ (2 ^ 62) ^ len
  sf : SmallL A
  sg : SmallL A'
  zf : ∀ b ∈ B, b = 0
  zg : ∀ b ∈ B', b = 0
  lf : Cong 64 (low64 f) F
  lg : Cong 64 (low64 g) G

theorem jacobi64Loop_spec {m : ℤ} (k : ℕ) : ∀ {F : ℕ} {G z : ℤ} {len jac : ℕ} {f g A A' B B' : List ℤ},
    |z| + 62 * k ≤ 2 ^ 20 → JacState m F G len f g A A' B B' →
    ∃ r, jacobi64Loop k len z jac f g = some r ∧ (r = 0 ∨ r = (-1) ^ jac * J(G | F)) := by
  induction k with
  | zero => intro F G z len jac f g A A' B B' _ _; exact ⟨0, rfl, Or.inl rfl⟩
  | succ k ih =>
    intro F G z len jac f g A A' B B' hz st
    obtain ⟨hodd, hG0, hlen5, rfl, rfl, rfl, lA', ne, vf, vg, cf, cg, sf, sg, zf, zg, lf, lg⟩ := st
    obtain ⟨z', jac', f1, g1, u1, v1, q1, r1, e, hz', o1, p1, hu, hq, hj⟩ := posdivsteps62Var_spec
      (z := z) (jac := jac) hodd hG0 (by push_cast at hz; omega) (low64_lt _) (low64_lt _) lf lg
    have iu : |u1| + |v1| ≤ 2 ^ 62 := by rw [abs_of_nonneg hu.u0, abs_of_nonneg hu.v0]; exact hu.le
    have iq : |q1| + |r1| ≤ 2 ^ 62 := by rw [abs_of_nonneg hq.u0, abs_of_nonneg hq.v0]; exact hq.le
    have cf' := row_bound hu.eq.symm iu cf cg
    have cg' := row_bound hq.eq.symm iq cf cg
    have x1 : 2 ^ 62 * (f1 : ℤ) = u1 * limbsInt A + v1 * limbsInt A' := by rw [vf, vg]; exact hu.eq.symm
    have x2 : 2 ^ 62 * g1 = q1 * limbsInt A + r1 * limbsInt A' := by rw [vf, vg]; exact hq.eq.symm
    obtain ⟨Fl, eF, lF, hF, vF⟩ := fgVarRow_spec (B := B) (B' := B') iu ne lA'.symm sf sg x1 cf'
    obtain ⟨Gl, eG, lG, hG, vG⟩ := fgVarRow_spec (B := B) (B' := B') iq ne lA'.symm sf sg x2 cg'
    have hFne : Fl ≠ [] := by rintro rfl; exact ne (List.eq_nil_of_length_eq_zero lF.symm)
    have hGne : Gl ≠ [] := by rintro rfl; exact ne (List.eq_nil_of_length_eq_zero lG.symm)
    have hupd : updateFg62Var A.length (A ++ B) (A' ++ B') ⟨u1, v1, q1, r1⟩ =
        some (Fl ++ B, Gl ++ B') := by
      unfold updateFg62Var
      dsimp only
      rw [eF, Option.bind_some, eG, Option.bind_some, List.drop_left, ← lA', List.drop_left]
    unfold jacobi64Loop
    rw [e, Option.bind_some]
    dsimp only
    rw [hupd, Option.bind_some]
    dsimp only
    have hone := fone_iff (B := B) hF
    rw [lF, vF] at hone
    have hlastF : (Fl ++ B).getD (A.length - 1) 0 = Fl.getLast hFne := by rw [← lF]; exact getD_last hFne
    have hlastG : (Gl ++ B').getD (A.length - 1) 0 = Gl.getLast hGne := by rw [← lG]; exact getD_last hGne
    have tF : |Fl.getLast hFne| ≤ 2 ^ 62 := hF.small _ (List.getLast_mem hFne)
    have tG : |Gl.getLast hGne| ≤ 2 ^ 62 := hG.small _ (List.getLast_mem hGne)
    by_cases hstop : (f1 : ℤ) = 1
    · rw [if_pos (hone.mpr hstop)]
      refine ⟨_, rfl, Or.inr ?_⟩
      have h1 : f1 = 1 := by exact_mod_cast hstop
      rw [hj, h1, jacobiSym.one_right, mul_one, neg_one_pow_eq_pow_mod_two, Nat.and_one_is_mod]
      rcases Nat.mod_two_eq_zero_or_one jac' with h | h <;> rw [h] <;> norm_num
    · rw [if_neg (fun h => hstop (hone.mp h)), hlastF, hlastG, hj]
      have hsc := jacShrink_iff hlen5 tF tG
      by_cases hsh : or64 (or64 (((A.length : ℤ) - 2) / 2 ^ 63) (Fl.getLast hFne)) (Gl.getLast hGne) = 0
      · rw [if_pos hsh]
        obtain ⟨s1, s2, s3⟩ := hsc.mp hsh
        obtain ⟨C, eC, lC, hC, vC, bC⟩ := dropTop_spec hF (by omega) hFne s2
        obtain ⟨C', eC', lC', hC', vC', bC'⟩ := dropTop_spec hG (by omega) hGne s3
        have zf' : ∀ b ∈ 0 :: B, b = 0 := by
          intro b hb; rcases List.mem_cons.mp hb with h | h; exacts [h, zf b h]
        have zg' : ∀ b ∈ 0 :: B', b = 0 := by
          intro b hb; rcases List.mem_cons.mp hb with h | h; exacts [h, zg b h]
        have hfe : Fl ++ B = C ++ (0 :: B) := by rw [eC]; simp
        have hge : Gl ++ B' = C' ++ (0 :: B') := by rw [eC']; simp
        have wF : limbsInt C = f1 := by rw [vC, vF]
        have wG : limbsInt C' = g1 := by rw [vC', vG]
        refine ih (z := z') (by push_cast at hz; omega) (A := C) (A' := C') (B := 0 :: B) (B' := 0 :: B')
          ⟨o1, p1, by omega, hfe, hge, by omega, by omega, by rintro rfl; exact hC, wF, wG, ?_, ?_,
            hC.small, hC'.small, zf', zg', ?_, ?_⟩
        · rw [wF, lC, lF] at bC; exact bC
        · rw [wG, lC', lG] at bC'; exact bC'
        · rw [hfe, ← wF]; exact low64_low hC (by rw [wF]; exact Int.natCast_nonneg f1) zf'
        · rw [hge, ← wG]; exact low64_low hC' (by rw [wG]; exact p1) zg'
      · rw [if_neg hsh]
        refine ih (z := z') (by push_cast at hz; omega) (A := Fl) (A' := Gl) (B := B) (B' := B')
          ⟨o1, p1, hlen5, rfl, rfl, lF, lG, hFne, vF, vG, cf', cg', hF.small, hG.small, zf, zg, ?_, ?_⟩
        · rw [← vF]; exact low64_low hF (by rw [vF]; exact Int.natCast_nonneg f1) zf
        · rw [← vG]; exact low64_low hG (by rw [vG]; exact p1) zg

/-- The result is the Jacobi symbol, or 0 for "unknown". -/
theorem jacobi64MaybeVar_spec {M : Modinfo} {m : ℤ} (hM : M.Ok m)
    (hM' : 0 ≤ M.modulus.v0 ∨ M.modulus.v1 = 0) {x : S62} (hx : x.Canon) (h1 : x.int < m) :
    ∃ r, jacobi64MaybeVar x M = some r ∧ (r = 0 ∨ r = J(x.int | m.toNat)) := by
  have hm1 := hM.ge
  have hm2 := hM.le
  have hodd := hM.odd
  obtain ⟨mn, rfl⟩ : ∃ mn : ℕ, m = mn := ⟨m.toNat, by omega⟩
  have h0 : 0 ≤ x.int := by
    obtain ⟨a, b, c, d, e⟩ := hx
    unfold S62.int
    omega
  have habs : |x.int| ≤ mn := by rw [abs_of_nonneg h0]; exact h1.le
  have hmabs : |(mn : ℤ)| ≤ mn := by rw [abs_of_nonneg (by omega)]
  have l0 := hM.l0
  rw [abs_lt] at l0
  have key : ∀ a : S62, a.v0 < 2 ^ 62 → (0 ≤ a.v0 ∨ (-2 ^ 62 < a.v0 ∧ a.v1 = 0)) →
      Cong 64 (low64 a.toList) a.int := by
    intro a h1 h2
    have := low64_cong (l := [a.v2, a.v3, a.v4]) (B := []) h1 h2
    rw [List.append_nil] at this
    rw [← limbsInt_toList]
    exact this
  have lf : Cong 64 (low64 M.modulus.toList) (mn : ℤ) :=
    (key M.modulus l0.2 (hM'.imp id fun h => ⟨l0.1, h⟩)).congr hM.val
  have lg := key x hx.v0.2 (Or.inl hx.v0.1)
  obtain ⟨r, e, hr⟩ := jacobi64Loop_spec (m := mn) 25 (F := mn) (G := x.int) (z := -1) (len := 5)
    (jac := 0) (f := M.modulus.toList) (g := x.toList) (A := M.modulus.toList) (A' := x.toList)
    (B := []) (B' := []) (by norm_num)
    ⟨by omega, h0, le_refl _, by simp, by simp, rfl, rfl, by simp [S62.toList],
      by rw [limbsInt_toList, hM.val], limbsInt_toList x,
      hmabs.trans (hm2.trans (by norm_num)), habs.trans (hm2.trans (by norm_num)), hM.small.toList,
      hx.small.toList, by simp, by simp, lf, lg⟩
  refine ⟨r, e, ?_⟩
  rw [pow_zero, one_mul] at hr
  rw [Int.toNat_natCast]
  exact hr

end Secp.Model
