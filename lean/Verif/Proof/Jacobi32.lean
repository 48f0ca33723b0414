import Verif.Proof.Modinv32Var
import Verif.Proof.Jacobi64

/-! # The Jacobi symbol by 30 steps at a time -/

namespace Secp.Model.M32
open Secp.Divstep
open scoped NumberTheorySymbols

theorem shiftZeros_spec2 {i L : ℕ} (hi : i ≤ 30) (hL : L ≤ i) {s : DivVars} {z f g' u v q r : ℤ}
    (hz : |z| ≤ 2 ^ 30) (h : VRel (i + 2) s ⟨⟨z, f, 2 ^ L * g'⟩, u, v, q, r⟩) :
    ∃ (t : DivVars) (k : ℕ) (g'' : ℤ), shiftZeros s i = some (t, i - k, k) ∧ L ≤ k ∧ k ≤ i ∧
      g' = 2 ^ (k - L) * g'' ∧ (k < i → g'' % 2 = 1) ∧ t.f = s.f ∧
      VRel (i - k + 2) t ⟨⟨z - k, f, g''⟩, 2 ^ k * u, 2 ^ k * v, q, r⟩ := by
  obtain ⟨k, e, hk, hd, hodd, hmax⟩ := zeros_spec (g := s.g) hi
  have hLg : 2 ^ L ∣ s.g := by
    have h1 : Cong L s.g (2 ^ L * g') := h.g.mono (by omega)
    unfold Cong at h1
    have h2 : (2 : ℤ) ^ L ∣ s.g := (Int.ModEq.dvd_iff h1).mpr (Dvd.intro _ rfl)
    exact_mod_cast h2
  have hLk := hmax L hL hLg
  obtain ⟨g'', hg''⟩ : ∃ g'', 2 ^ L * g' = 2 ^ k * g'' := by
    have h1 : Cong k s.g (2 ^ L * g') := h.g.mono (by omega)
    unfold Cong at h1
    have h2 : (2 : ℤ) ^ k ∣ s.g := by exact_mod_cast hd
    exact (Int.ModEq.dvd_iff h1).mp h2
  have hg' : g' = 2 ^ (k - L) * g'' := by
    have : (2 : ℤ) ^ L * g' = 2 ^ L * (2 ^ (k - L) * g'') := by
      rw [hg'', ← mul_assoc, ← pow_add, show L + (k - L) = k by omega]
    exact mul_left_cancel₀ (by positivity) this
  have hgc := shr_cong (i := i + 2) (by omega) h.g hg'' hd
  rw [show i + 2 - k = i - k + 2 by omega] at hgc
  refine ⟨⟨s.z - k, s.f, s.g >>> k, u32 (s.u <<< k), u32 (s.v <<< k), s.q, s.r⟩, k, g'', ?_, hLk, hk,
    hg', ?_, rfl, ?_⟩
  · unfold shiftZeros
    dsimp only
    rw [e, if_pos hk]
    have hz' := h.z
    dsimp only at hz'
    rw [abs_le] at hz
    rw [i32?_some (by omega) (by omega), Option.bind_some]
  · intro hlt
    have h1 := hodd hlt
    have h2 := hgc.parity (by omega)
    rw [Nat.shiftRight_eq_div_pow] at h2
    omega
  · refine ⟨⟨h.w.fl, ?_, u32_lt' _, u32_lt' _, h.w.ql, h.w.rl⟩, ?_, h.f.mono (by omega), hgc,
      shl_cong h.u, shl_cong h.v, h.q, h.r⟩
    · dsimp only
      rw [Nat.shiftRight_eq_div_pow]
      exact lt_of_le_of_lt (Nat.div_le_self _ _) h.w.gl
    · have hz' := h.z
      dsimp only at hz' ⊢
      rw [hz']

theorem posLoop_spec (k : ℕ) {F0 G0 : ℤ} : ∀ {i L : ℕ} {s : DivVars} {z : ℤ} {f : ℕ} {g' u v q r : ℤ}
    {jac : ℕ}, 1 ≤ i → i ≤ 30 → L ≤ i → (i < k ∨ (1 ≤ L ∧ i ≤ k)) → |z| + 2 * i ≤ 2 ^ 29 →
    f % 2 = 1 → 0 ≤ g' → PRow F0 G0 (30 - i) u v f → PRow F0 G0 (30 - i + L) q r g' →
    VRel (i + 2) s ⟨⟨z, f, 2 ^ L * g'⟩, u, v, q, r⟩ →
    ∃ (t : DivVars) (jac' : ℕ) (z' : ℤ) (f1 : ℕ) (g1 u1 v1 q1 r1 : ℤ),
      posdivsteps30VarLoop k s i jac = some (t, jac') ∧ |z'| ≤ |z| + i ∧ f1 % 2 = 1 ∧ 0 ≤ g1 ∧
      PRow F0 G0 30 u1 v1 f1 ∧ PRow F0 G0 30 q1 r1 g1 ∧
      VRel 2 t ⟨⟨z', f1, g1⟩, u1, v1, q1, r1⟩ ∧
      (-1) ^ jac * J(2 ^ L * g' | f) = (-1) ^ jac' * J(g1 | f1) := by
  induction k with
  | zero => intro i L s z f g' u v q r jac _ _ h1 h2; omega
  | succ k ih =>
    intro i L s z f g' u v q r jac hi1 hi hL hk hz hf hg0 hu hq h
    have hz0 : |z| ≤ 2 ^ 29 := by omega
    obtain ⟨t, c, g'', e, hLc, hc, hg, hodd, etf, ht⟩ := shiftZeros_spec2 hi hL (by omega) h
    have hg''0 : 0 ≤ g'' := by
      rw [hg] at hg0
      exact nonneg_of_mul_nonneg_right hg0 (by positivity)
    have hpow : (2 : ℤ) ^ L * g' = 2 ^ c * g'' := by
      rw [hg, ← mul_assoc, ← pow_add, show L + (c - L) = c by omega]
    have hf8 : s.f % 8 = f % 8 := h.f.mod8 (by omega)
    have hu' := hu.shift c
    have hq' : PRow F0 G0 (30 - (i - c)) q r g'' := by
      rw [hg] at hq
      have := hq.mono
      rwa [show 30 - i + L + (c - L) = 30 - (i - c) by omega] at this
    rw [show 30 - i + c = 30 - (i - c) by omega] at hu'
    -- the sign after the shift
    obtain ⟨jac1, hj1⟩ : ∃ jac1, jac1 = (jac ^^^ (c &&& ((t.f >>> 1) ^^^ (t.f >>> 2)))) % 2 ^ 32 := ⟨_, rfl⟩
    have hsgn : (-1) ^ jac * J(2 ^ L * g' | f) = (-1) ^ jac1 * J(g'' | f) := by
      rw [hj1, sign_xor, etf, hpow, jac_shift hf c g'' hf8, mul_assoc]
    unfold posdivsteps30VarLoop
    rw [e, Option.bind_some]
    dsimp only
    rw [← hj1]
    have hzc : |z - (c : ℤ)| ≤ |z| + c := by
      have := abs_sub z (c : ℤ)
      rwa [abs_of_nonneg (Int.natCast_nonneg c)] at this
    by_cases hi0 : i - c = 0
    · rw [if_pos hi0]
      rw [hi0] at ht hu' hq'
      exact ⟨t, jac1, z - c, f, g'', _, _, _, _, rfl, by omega, hf, hg''0, hu', hq', ht, hsgn⟩
    rw [if_neg hi0]
    have hgo := hodd (by omega)
    obtain ⟨gn, rfl⟩ : ∃ gn : ℕ, g'' = gn := ⟨g''.toNat, by omega⟩
    have tz : t.z = z - c := ht.z
    have hfo : t.f % 2 = 1 := by
      have := ht.f.parity (by omega); dsimp only at this; omega
    have hgo' : t.g % 2 = 1 := by
      have := ht.g.parity (by omega); dsimp only at this; omega
    rw [abs_le] at hz0
    unfold swapPos
    by_cases hneg : t.z < 0
    · rw [if_pos hneg, i32?_some (by omega) (by omega), Option.bind_some, Option.bind_some]
      dsimp only
      have hsw : VRel (i - c + 2) ⟨-t.z, t.g, t.f, t.q, t.r, t.u, t.v⟩
          ⟨⟨-(z - c), (gn : ℤ), (f : ℤ)⟩, q, r, 2 ^ c * u, 2 ^ c * v⟩ := by
        refine ⟨⟨ht.w.gl, ht.w.fl, ht.w.ql, ht.w.rl, ht.w.ul, ht.w.vl⟩, ?_, ht.g, ht.f, ht.q, ht.r,
          ht.u, ht.v⟩
        dsimp only; rw [tz]
      obtain ⟨L', l1, l2, l3, l4, hm⟩ := limitMask_spec (eta := -t.z) (i := i - c) (by omega)
        (by omega) (by omega) (by omega)
      rw [hm, Option.bind_some]
      obtain ⟨w, hw, w1, w2⟩ := cancel8_spec (f := t.g) (g := t.f) hgo' l4
      rw [hw, Option.bind_some]
      have hcl := cong_clear (c := w) hsw.f hsw.g (by omega) w2
      dsimp only at hcl
      obtain ⟨g3, hg3⟩ := hcl
      have hadd := addMultiple_rel (w := w) (by omega) hsw
      rw [hg3] at hadd
      have hg3' : 0 ≤ g3 := by
        have : (0 : ℤ) ≤ 2 ^ L' * g3 := by rw [← hg3]; positivity
        exact nonneg_of_mul_nonneg_right this (by positivity)
      have hr := hq'.add hu' w1 hg3.symm
      obtain ⟨t', jac', z', f1, g1, u1, v1, q1, r1, et', hz', a1, a2, a3, a4, a5, a6⟩ := ih (i := i - c)
        (L := L') (jac := (jac1 ^^^ ((t.f &&& t.g) >>> 1)) % 2 ^ 32) (by omega) (by omega) l2 (by omega)
        (by rw [abs_neg]; omega) (by omega) hg3' hq' hr hadd
      refine ⟨t', jac', z', f1, g1, u1, v1, q1, r1, et', ?_, a1, a2, a3, a4, a5, ?_⟩
      · rw [abs_neg] at hz'; omega
      · rw [hsgn, ← a6, sign_xor, ← hg3, jac_add, mul_assoc]
        congr 1
        have m1 : t.f % 8 = f % 8 := etf ▸ hf8
        have m2 : t.g % 8 = gn % 8 := ht.g.mod8 (by omega)
        rw [Nat.and_comm t.f t.g]
        exact jac_swap hf (by omega) (by omega) (by omega)
    · rw [if_neg hneg, Option.bind_some]
      dsimp only
      obtain ⟨L', l1, l2, l3, l4, hm⟩ := limitMask_spec (eta := t.z) (i := i - c) (by omega)
        (by omega) (by omega) (by omega)
      rw [hm, Option.bind_some]
      obtain ⟨w, hw, w1, w2⟩ := cancel8_spec (f := t.f) (g := t.g) hfo l4
      rw [hw, Option.bind_some]
      have hcl := cong_clear (c := w) ht.f ht.g (by omega) w2
      dsimp only at hcl
      obtain ⟨g3, hg3⟩ := hcl
      have hadd := addMultiple_rel (w := w) (by omega) ht
      rw [hg3] at hadd
      have hg3' : 0 ≤ g3 := by
        have : (0 : ℤ) ≤ 2 ^ L' * g3 := by rw [← hg3]; positivity
        exact nonneg_of_mul_nonneg_right this (by positivity)
      have hr := hu'.add hq' w1 hg3.symm
      obtain ⟨t', jac', z', f1, g1, u1, v1, q1, r1, et', hz', a1, a2, a3, a4, a5, a6⟩ := ih (i := i - c)
        (L := L') (jac := jac1) (by omega) (by omega) l2 (by omega) (by omega) hf hg3' hu' hr hadd
      refine ⟨t', jac', z', f1, g1, u1, v1, q1, r1, et', by omega, a1, a2, a3, a4, a5, ?_⟩
      rw [hsgn, ← a6, ← hg3, jac_add]

/-- The 30 steps: a non-negative matrix that divides out `2^30`, and the change of the symbol. -/
theorem posdivsteps30Var_spec {z G : ℤ} {f0 g0 F jac : ℕ} (hF : F % 2 = 1) (hG : 0 ≤ G)
    (hz : |z| ≤ 2 ^ 20) (hf0 : f0 < 2 ^ 32) (hg0 : g0 < 2 ^ 32) (hf : Cong 32 f0 F) (hg : Cong 32 g0 G) :
    ∃ (z' : ℤ) (jac' f1 : ℕ) (g1 u1 v1 q1 r1 : ℤ),
      posdivsteps30Var z f0 g0 jac = some (z', ⟨u1, v1, q1, r1⟩, jac') ∧ |z'| ≤ |z| + 30 ∧
      f1 % 2 = 1 ∧ 0 ≤ g1 ∧ PRow F G 30 u1 v1 f1 ∧ PRow F G 30 q1 r1 g1 ∧
      (-1) ^ jac * J(G | F) = (-1) ^ jac' * J(g1 | f1) := by
  obtain ⟨t, jac', z', f1, g1, u1, v1, q1, r1, e, a1, a2, a3, a4, a5, a6, a7⟩ := posLoop_spec 31
    (F0 := F) (G0 := G) (i := 30) (L := 0) (s := ⟨z, f0, g0, 1, 0, 0, 1⟩) (z := z) (f := F) (g' := G)
    (u := 1) (v := 0) (q := 0) (r := 1) (jac := jac) (by norm_num) (le_refl _) (by norm_num)
    (Or.inl (by norm_num)) (by push_cast; omega) hF hG ⟨by norm_num, by norm_num, by norm_num, by simp⟩
    ⟨by norm_num, by norm_num, by norm_num, by simp⟩
    ⟨⟨hf0, hg0, by norm_num, by norm_num, by norm_num, by norm_num⟩, rfl, hf,
      by rw [pow_zero, one_mul]; exact hg, Cong.of_eq rfl, Cong.of_eq rfl, Cong.of_eq rfl, Cong.of_eq rfl⟩
  refine ⟨z', jac', f1, g1, u1, v1, q1, r1, ?_, by exact_mod_cast a1, a2, a3, a4, a5, ?_⟩
  · unfold posdivsteps30Var
    rw [e, Option.bind_some]
    dsimp only
    have key : ∀ x y : ℤ, 0 ≤ x → 0 ≤ y → x + y ≤ 2 ^ 30 → -2 ^ 31 ≤ x ∧ x < 2 ^ 31 := by
      intro x y _ _ _; omega
    have hu := key _ _ a4.u0 a4.v0 a4.le
    have hv := key _ _ a4.v0 a4.u0 (by have := a4.le; omega)
    have hq := key _ _ a5.u0 a5.v0 a5.le
    have hr := key _ _ a5.v0 a5.u0 (by have := a5.le; omega)
    unfold M32.trans
    rw [a6.z, a6.u.toI32 hu.1 hu.2, a6.v.toI32 hv.1 hv.2, a6.q.toI32 hq.1 hq.2, a6.r.toI32 hr.1 hr.2]
  · rw [pow_zero, one_mul] at a7
    exact a7

/-! ### The outer loop -/

theorem low32_lt (v : List ℤ) : low32 v < 2 ^ 32 :=
  Nat.or_lt_two_pow (toU32_lt _) (u32_lt' _)

/-- The low 64 bits are right if the lowest limb is not negative or the next one a multiple of 4. -/
theorem low32_cong {a b : ℤ} {l B : List ℤ} (ha : a < 2 ^ 30) (ha' : 0 ≤ a ∨ (-2 ^ 30 < a ∧ b % 4 = 0)) :
    Cong 32 (low32 (a :: b :: l ++ B)) (int30 (a :: b :: l)) := by
  have e : low32 (a :: b :: l ++ B) = toU32 a ||| u32 (toU32 b <<< 30) := rfl
  have e2 : int30 (a :: b :: l) = a + 2 ^ 30 * b + 2 ^ 32 * (2 ^ 28 * int30 l) := by
    simp only [int30]; ring
  have key : Cong 32 (toU32 a ||| u32 (toU32 b <<< 30)) (a + 2 ^ 30 * b) := by
    rcases ha' with h0 | ⟨-, hb⟩
    · have h1 : toU32 a < 2 ^ 30 := by unfold toU32; omega
      have h2 : u32 (toU32 b <<< 30) = 2 ^ 30 * (toU32 b % 4) := by
        unfold u32; rw [Nat.shiftLeft_eq]; omega
      rw [h2, Nat.or_comm, ← Nat.two_pow_add_eq_or_of_lt h1]
      have h3 := toU32_cast a
      have h4 := toU32_cast b
      unfold Cong
      rw [Int.modEq_iff_dvd]
      push_cast
      omega
    · have h2 : u32 (toU32 b <<< 30) = 0 := by
        have h3 := toU32_cast b
        unfold u32; rw [Nat.shiftLeft_eq]; omega
      rw [h2, Nat.or_zero]
      refine (cong_toU32 a (le_refl _)).trans ?_
      rw [Int.modEq_iff_dvd]
      omega
  rw [e, e2]
  refine key.trans ?_
  rw [Int.modEq_iff_dvd]
  exact ⟨2 ^ 28 * int30 l, by ring⟩

theorem low32_low {A B : List ℤ} (hA : LowL A) (h0 : 0 ≤ int30 A) (hB : ∀ b ∈ B, b = 0) :
    Cong 32 (low32 (A ++ B)) (int30 A) := by
  cases A with
  | nil => exact absurd hA (by simp [LowL])
  | cons a l =>
    cases l with
    | nil =>
      have e : low32 ([a] ++ B) = toU32 a := by
        unfold low32
        have hb : ([a] ++ B).getD 1 0 = 0 := by
          cases B with
          | nil => rfl
          | cons b B => exact hB b (by simp)
        rw [hb, show u32 (toU32 0 <<< 30) = 0 by decide, Nat.or_zero]
        rfl
      rw [e]
      exact (cong_toU32 a (le_refl _)).congr (by simp [int30])
    | cons b l => exact low32_cong hA.1.2 (Or.inl hA.1.1)

/-- The test for `f = 1`. -/
theorem fone_iff {A B : List ℤ} (hA : LowL A) :
    ((A ++ B).getD 0 0 = 1 ∧ orLimbs A.length (A ++ B) = 0) ↔ int30 A = 1 := by
  cases A with
  | nil => exact absurd hA (by simp [LowL])
  | cons a l =>
    have hs := hA.small
    have hr : ∀ b ∈ l, -2 ^ 31 ≤ b ∧ b < 2 ^ 31 := by
      intro b hb
      have := hs b (by simp [hb])
      rw [abs_le] at this
      omega
    unfold orLimbs
    rw [List.take_left]
    have e : (a :: l).drop 1 = l := rfl
    rw [e, orFold_zero hr (by norm_num) (by norm_num)]
    have e0 : (a :: l ++ B).getD 0 0 = a := rfl
    have e1 : int30 (a :: l) = a + 2 ^ 30 * int30 l := rfl
    rw [e0, e1]
    cases l with
    | nil => simp [int30]
    | cons b l =>
      have hz := LowL.zero hA.2
      have ha := hA.1
      constructor
      · rintro ⟨h1, -, h2⟩
        rw [h1, hz.mpr h2]; norm_num
      · intro h
        have h2 : int30 (b :: l) = 0 := by omega
        exact ⟨by omega, rfl, hz.mp h2⟩

theorem jacShrink_iff {len : ℕ} {fn gn : ℤ} (hlen : len ≤ 9) (hf : |fn| ≤ 2 ^ 30) (hg : |gn| ≤ 2 ^ 30) :
    or32 (or32 (((len : ℤ) - 2) / 2 ^ 31) fn) gn = 0 ↔ 2 ≤ len ∧ fn = 0 ∧ gn = 0 := by
  rw [abs_le] at hf hg
  obtain ⟨r1, r2⟩ := or32_range (((len : ℤ) - 2) / 2 ^ 31) fn
  rw [or32_eq_zero r1 r2 (by omega) (by omega), or32_eq_zero (by omega) (by omega) (by omega) (by omega)]
  have : ((len : ℤ) - 2) / 2 ^ 31 = 0 ↔ 2 ≤ len := by omega
  rw [this]
  exact and_assoc

/-- Forgetting a top limb that is zero. -/
theorem dropTop_spec {A : List ℤ} (hA : LowL A) (h2 : 2 ≤ A.length) (hne : A ≠ [])
    (ht : A.getLast hne = 0) :
    ∃ A', A = A' ++ [0] ∧ A'.length = A.length - 1 ∧ LowL A' ∧ int30 A' = int30 A ∧
      |int30 A'| ≤ (2 ^ 30) ^ A'.length := by
  obtain ⟨l, a, s, rfl⟩ : ∃ l a s, A = l ++ [a, s] := by
    have hne2 : A.dropLast ≠ [] := by
      intro h
      have := congrArg List.length h
      simp at this
      omega
    refine ⟨A.dropLast.dropLast, A.dropLast.getLast hne2, A.getLast hne, ?_⟩
    have e1 := List.dropLast_append_getLast hne2
    have e2 := List.dropLast_append_getLast hne
    conv_lhs => rw [← e2, ← e1]
    simp
  have hs : s = 0 := by simpa using ht
  subst hs
  obtain ⟨h1, h3, h4⟩ := hA.merge (Or.inl rfl)
  rw [zero_mul, add_zero] at h3 h4
  have hb := int30_bound (A := l ++ [a]) (by simp) h3 (by
    rw [List.getLast_append_singleton]; omega)
  exact ⟨l ++ [a], by simp, by simp, h3, h4, by rw [abs_le]; omega⟩

/-- The state of the loop: `f` and `g` in the first `len` limbs, zeros behind them. -/
structure JacState (m : ℤ) (F : ℕ) (G : ℤ) (len : ℕ) (f g A A' B B' : List ℤ) : Prop where
  odd : F % 2 = 1
  g0 : 0 ≤ G
  len9 : len ≤ 9
  hf : f = A ++ B
  hg : g = A' ++ B'
  lA : A.length = len
  lA' : A'.length = len
  ne : A ≠ []
  vf : int30 A = F
  vg : int30 A' = G
  cf : |(F : ℤ)| ≤ (2 ^ 30) ^ len
  cg : |G| ≤ (2 ^ 30) ^ len
  sf : SmallL A
  sg : SmallL A'
  zf : ∀ b ∈ B, b = 0
  zg : ∀ b ∈ B', b = 0
  lf : Cong 32 (low32 f) F
  lg : Cong 32 (low32 g) G

theorem jacobi32Loop_spec {m : ℤ} (k : ℕ) : ∀ {F : ℕ} {G z : ℤ} {len jac : ℕ} {f g A A' B B' : List ℤ},
    |z| + 30 * k ≤ 2 ^ 20 → JacState m F G len f g A A' B B' →
    ∃ r, jacobi32Loop k len z jac f g = some r ∧ (r = 0 ∨ r = (-1) ^ jac * J(G | F)) := by
  induction k with
  | zero => intro F G z len jac f g A A' B B' _ _; exact ⟨0, rfl, Or.inl rfl⟩
  | succ k ih =>
    intro F G z len jac f g A A' B B' hz st
    obtain ⟨hodd, hG0, hlen9, rfl, rfl, rfl, lA', ne, vf, vg, cf, cg, sf, sg, zf, zg, lf, lg⟩ := st
    obtain ⟨z', jac', f1, g1, u1, v1, q1, r1, e, hz', o1, p1, hu, hq, hj⟩ := posdivsteps30Var_spec
      (z := z) (jac := jac) hodd hG0 (by push_cast at hz; omega) (low32_lt _) (low32_lt _) lf lg
    have iu : |u1| + |v1| ≤ 2 ^ 30 := by rw [abs_of_nonneg hu.u0, abs_of_nonneg hu.v0]; exact hu.le
    have iq : |q1| + |r1| ≤ 2 ^ 30 := by rw [abs_of_nonneg hq.u0, abs_of_nonneg hq.v0]; exact hq.le
    have cf' := row_bound hu.eq.symm iu cf cg
    have cg' := row_bound hq.eq.symm iq cf cg
    have x1 : 2 ^ 30 * (f1 : ℤ) = u1 * int30 A + v1 * int30 A' := by rw [vf, vg]; exact hu.eq.symm
    have x2 : 2 ^ 30 * g1 = q1 * int30 A + r1 * int30 A' := by rw [vf, vg]; exact hq.eq.symm
    obtain ⟨Fl, eF, lF, hF, vF⟩ := fgRow_spec (B := B) (B' := B') iu ne lA'.symm sf sg x1 cf'
    obtain ⟨Gl, eG, lG, hG, vG⟩ := fgRow_spec (B := B) (B' := B') iq ne lA'.symm sf sg x2 cg'
    have hFne : Fl ≠ [] := by rintro rfl; exact ne (List.eq_nil_of_length_eq_zero lF.symm)
    have hGne : Gl ≠ [] := by rintro rfl; exact ne (List.eq_nil_of_length_eq_zero lG.symm)
    have hupd : updateFg30Var A.length (A ++ B) (A' ++ B') ⟨u1, v1, q1, r1⟩ =
        some (Fl ++ B, Gl ++ B') := by
      unfold updateFg30Var
      dsimp only
      rw [eF, Option.bind_some, eG, Option.bind_some, List.drop_left, ← lA', List.drop_left]
    unfold jacobi32Loop
    rw [e, Option.bind_some]
    dsimp only
    rw [hupd, Option.bind_some]
    dsimp only
    have hone := fone_iff (B := B) hF
    rw [lF, vF] at hone
    have hlastF : (Fl ++ B).getD (A.length - 1) 0 = Fl.getLast hFne := by rw [← lF]; exact getD_last hFne
    have hlastG : (Gl ++ B').getD (A.length - 1) 0 = Gl.getLast hGne := by rw [← lG]; exact getD_last hGne
    have tF : |Fl.getLast hFne| ≤ 2 ^ 30 := hF.small _ (List.getLast_mem hFne)
    have tG : |Gl.getLast hGne| ≤ 2 ^ 30 := hG.small _ (List.getLast_mem hGne)
    by_cases hstop : (f1 : ℤ) = 1
    · rw [if_pos (hone.mpr hstop)]
      refine ⟨_, rfl, Or.inr ?_⟩
      have h1 : f1 = 1 := by exact_mod_cast hstop
      rw [hj, h1, jacobiSym.one_right, mul_one, neg_one_pow_eq_pow_mod_two, Nat.and_one_is_mod]
      rcases Nat.mod_two_eq_zero_or_one jac' with h | h <;> rw [h] <;> norm_num
    · rw [if_neg (fun h => hstop (hone.mp h)), hlastF, hlastG, hj]
      have hsc := jacShrink_iff hlen9 tF tG
      by_cases hsh : or32 (or32 (((A.length : ℤ) - 2) / 2 ^ 31) (Fl.getLast hFne)) (Gl.getLast hGne) = 0
      · rw [if_pos hsh]
        obtain ⟨s1, s2, s3⟩ := hsc.mp hsh
        obtain ⟨C, eC, lC, hC, vC, bC⟩ := dropTop_spec hF (by omega) hFne s2
        obtain ⟨C', eC', lC', hC', vC', bC'⟩ := dropTop_spec hG (by omega) hGne s3
        have zf' : ∀ b ∈ 0 :: B, b = 0 := by
          intro b hb; rcases List.mem_cons.mp hb with h | h; exacts [h, zf b h]
        have zg' : ∀ b ∈ 0 :: B', b = 0 := by
          intro b hb; rcases List.mem_cons.mp hb with h | h; exacts [h, zg b h]
        have hfe : Fl ++ B = C ++ (0 :: B) := by rw [eC]; simp
        have hge : Gl ++ B' = C' ++ (0 :: B') := by rw [eC']; simp
        have wF : int30 C = f1 := by rw [vC, vF]
        have wG : int30 C' = g1 := by rw [vC', vG]
        refine ih (z := z') (by push_cast at hz; omega) (A := C) (A' := C') (B := 0 :: B) (B' := 0 :: B')
          ⟨o1, p1, by omega, hfe, hge, by omega, by omega, by rintro rfl; exact hC, wF, wG, ?_, ?_,
            hC.small, hC'.small, zf', zg', ?_, ?_⟩
        · rw [wF, lC, lF] at bC; exact bC
        · rw [wG, lC', lG] at bC'; exact bC'
        · rw [hfe, ← wF]; exact low32_low hC (by rw [wF]; exact Int.natCast_nonneg f1) zf'
        · rw [hge, ← wG]; exact low32_low hC' (by rw [wG]; exact p1) zg'
      · rw [if_neg hsh]
        refine ih (z := z') (by push_cast at hz; omega) (A := Fl) (A' := Gl) (B := B) (B' := B')
          ⟨o1, p1, hlen9, rfl, rfl, lF, lG, hFne, vF, vG, cf', cg', hF.small, hG.small, zf, zg, ?_, ?_⟩
        · rw [← vF]; exact low32_low hF (by rw [vF]; exact Int.natCast_nonneg f1) zf
        · rw [← vG]; exact low32_low hG (by rw [vG]; exact p1) zg

/-- The result is the Jacobi symbol, or 0 for "unknown". -/
theorem jacobi32MaybeVar_spec {M : Modinfo} {m : ℤ} (hM : M.Ok m)
    (hM' : 0 ≤ M.modulus.getD 0 0 ∨ M.modulus.getD 1 0 % 4 = 0) {x : List ℤ} (hx : Canon x)
    (h1 : int30 x < m) :
    ∃ r, jacobi32MaybeVar x M = some r ∧ (r = 0 ∨ r = J(int30 x | m.toNat)) := by
  have hm1 := hM.ge
  have hm2 := hM.le
  have hodd := hM.odd
  obtain ⟨mn, rfl⟩ : ∃ mn : ℕ, m = mn := ⟨m.toNat, by omega⟩
  have h0 : 0 ≤ int30 x := int30_nonneg hx.limb
  have habs : |int30 x| ≤ mn := by rw [abs_of_nonneg h0]; exact h1.le
  have hmabs : |(mn : ℤ)| ≤ mn := by rw [abs_of_nonneg (by omega)]
  have hm3 : (mn : ℤ) ≤ (2 ^ 30) ^ 9 := hm2.trans (by norm_num)
  have key : ∀ a : List ℤ, a.length = 9 → (∀ y ∈ a, |y| < 2 ^ 30) →
      (0 ≤ a.getD 0 0 ∨ a.getD 1 0 % 4 = 0) → Cong 32 (low32 a) (int30 a) := by
    intro a hl h1 h2
    obtain ⟨y, a, rfl⟩ := List.exists_cons_of_ne_nil (l := a) (by rintro rfl; simp at hl)
    obtain ⟨y', a, rfl⟩ := List.exists_cons_of_ne_nil (l := a) (by rintro rfl; simp at hl)
    have h3 := h1 y (by simp)
    rw [abs_lt] at h3
    have := low32_cong (l := a) (B := []) (b := y') h3.2 (h2.imp id fun h => ⟨h3.1, h⟩)
    rwa [List.append_nil] at this
  have lf : Cong 32 (low32 M.modulus) (mn : ℤ) := (key M.modulus hM.len hM.limb hM').congr hM.val
  have lg := key x hx.len (fun y hy => by have := hx.limb y hy; rw [abs_lt]; omega) (Or.inl (by
    have hl := hx.len
    have hb := hx.limb
    obtain ⟨y, a, rfl⟩ := List.exists_cons_of_ne_nil (l := x) (by rintro rfl; simp at hl)
    exact (hb y (by simp)).1))
  obtain ⟨r, e, hr⟩ := jacobi32Loop_spec (m := mn) 50 (F := mn) (G := int30 x) (z := -1) (len := 9)
    (jac := 0) (f := M.modulus) (g := x) (A := M.modulus) (A' := x)
    (B := []) (B' := []) (by norm_num)
    ⟨by omega, h0, le_refl _, by simp, by simp, hM.len, hx.len,
      by intro h; have := hM.len; rw [h] at this; simp at this,
      hM.val, rfl, hmabs.trans hm3, habs.trans hm3, hM.small, hx.small, by simp, by simp, lf, lg⟩
  refine ⟨r, e, ?_⟩
  rw [pow_zero, one_mul] at hr
  rw [Int.toNat_natCast]
  exact hr

end Secp.Model.M32
