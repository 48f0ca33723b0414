import Verif.Proof.Modinv32Base

/-!
`secp256k1_modinv32_divsteps_30` computes the matrix of 30 division steps.
-/

namespace Secp.Model.M32
open Secp.Divstep

theorem toU32_sign_neg {z : ℤ} (h1 : -2 ^ 31 ≤ z) (h : z < 0) : toU32 (z / 2 ^ 31) = 2 ^ 32 - 1 := by
  rw [sign_neg h1 h]; decide

theorem toU32_sign_nonneg {z : ℤ} (h : 0 ≤ z) (h2 : z < 2 ^ 31) : toU32 (z / 2 ^ 31) = 0 := by
  rw [sign_nonneg h h2]; decide

/-- Even `g`. -/
theorem divsteps30Step_even {s : DivVars} (hz1 : -2 ^ 31 < s.z) (hz2 : s.z < 2 ^ 31)
    (hf : s.f < 2 ^ 32) (hg : s.g < 2 ^ 32) (hu : s.u < 2 ^ 32) (hv : s.v < 2 ^ 32)
    (hq : s.q < 2 ^ 32) (hr : s.r < 2 ^ 32) (he : s.g % 2 = 0) :
    divsteps30Step s = ⟨s.z - 1, s.f, s.g >>> 1, u32 (s.u <<< 1), u32 (s.v <<< 1), s.q, s.r⟩ := by
  unfold divsteps30Step
  have m2 : u32 (2 ^ 32 - (s.g &&& 1)) = 0 := by
    rw [Nat.and_one_is_mod, he]; decide
  simp only [m2, Nat.and_zero, Nat.add_zero, Nat.xor_zero]
  have e : ∀ {x : ℕ}, x < 2 ^ 32 → u32 x = x := fun h => Nat.mod_eq_of_lt h
  have hz : toI32 ((u32 (toU32 s.z + (2 ^ 32 - 1)) : ℕ) : ℤ) = s.z - 1 := by
    have hc := toU32_cast s.z
    unfold u32 toI32
    omega
  rw [e hg, e hf, e hu, e hv, e hq, e hr, hz]

/-- Odd `g`, counter not negative. -/
theorem divsteps30Step_add {s : DivVars} (hz0 : 0 ≤ s.z) (hz2 : s.z < 2 ^ 31)
    (hf : s.f < 2 ^ 32) (hu : s.u < 2 ^ 32) (hv : s.v < 2 ^ 32) (ho : s.g % 2 = 1) :
    divsteps30Step s = ⟨s.z - 1, s.f, u32 (s.g + s.f) >>> 1, u32 (s.u <<< 1), u32 (s.v <<< 1),
      u32 (s.q + s.u), u32 (s.r + s.v)⟩ := by
  unfold divsteps30Step
  have m2 : u32 (2 ^ 32 - (s.g &&& 1)) = 2 ^ 32 - 1 := by
    rw [Nat.and_one_is_mod, ho]; decide
  have e : ∀ {x : ℕ}, x < 2 ^ 32 → u32 x = x := fun h => Nat.mod_eq_of_lt h
  have x0 : ∀ {x : ℕ}, x < 2 ^ 32 → u32 (x + (2 ^ 32 - 0)) = x := by
    intro x hx; unfold u32; omega
  simp only [m2, toU32_sign_nonneg hz0 hz2, Nat.xor_zero, Nat.zero_and, Nat.and_zero, Nat.add_zero,
    x0 hf, x0 hu, x0 hv, land_ones32 hf, land_ones32 hu, land_ones32 hv, e hf, e hu, e hv]
  have hz : toI32 ((u32 (toU32 s.z + (2 ^ 32 - 1)) : ℕ) : ℤ) = s.z - 1 := by
    have hc := toU32_cast s.z
    unfold u32 toI32
    omega
  rw [hz]

/-- Odd `g`, negative counter. -/
theorem divsteps30Step_swap {s : DivVars} (hz1 : -2 ^ 31 < s.z) (hz : s.z < 0)
    (hf : s.f < 2 ^ 32) (hu : s.u < 2 ^ 32) (hv : s.v < 2 ^ 32) (ho : s.g % 2 = 1) :
    divsteps30Step s = ⟨-s.z - 2, u32 (s.f + u32 (s.g + u32 (2 ^ 32 - s.f))),
      u32 (s.g + u32 (2 ^ 32 - s.f)) >>> 1,
      u32 (u32 (s.u + u32 (s.q + u32 (2 ^ 32 - s.u))) <<< 1),
      u32 (u32 (s.v + u32 (s.r + u32 (2 ^ 32 - s.v))) <<< 1),
      u32 (s.q + u32 (2 ^ 32 - s.u)), u32 (s.r + u32 (2 ^ 32 - s.v))⟩ := by
  unfold divsteps30Step
  have m2 : u32 (2 ^ 32 - (s.g &&& 1)) = 2 ^ 32 - 1 := by
    rw [Nat.and_one_is_mod, ho]; decide
  have x1 : ∀ {x : ℕ}, x < 2 ^ 32 → u32 ((x ^^^ (2 ^ 32 - 1)) + (2 ^ 32 - (2 ^ 32 - 1))) =
      u32 (2 ^ 32 - x) := by
    intro x hx; rw [xor_ones32 hx]; congr 1; omega
  simp only [m2, toU32_sign_neg hz1.le hz, x1 hf, x1 hu, x1 hv, land_ones32 (u32_lt' _),
    Nat.and_self]
  have hz' : toI32 ((u32 ((toU32 s.z ^^^ (2 ^ 32 - 1)) + (2 ^ 32 - 1)) : ℕ) : ℤ) = -s.z - 2 := by
    have hc := toU32_cast s.z
    rw [xor_ones32 (toU32_lt _)]
    have := toU32_lt s.z
    unfold u32 toI32
    omega
  rw [hz']

/-- The words of the loop stand for the state and the matrix (scaled by `c`) after `j` steps. -/
structure DivRel (c : ℤ) (N j : ℕ) (s : DivVars) (m : MS) : Prop where
  z : s.z = m.s.z
  f : Cong (N - j) s.f m.s.f
  g : Cong (N - j) s.g m.s.g
  u : Cong 32 s.u (c * m.u)
  v : Cong 32 s.v (c * m.v)
  q : Cong 32 s.q (c * m.q)
  r : Cong 32 s.r (c * m.r)
  fl : s.f < 2 ^ 32
  gl : s.g < 2 ^ 32
  ul : s.u < 2 ^ 32
  vl : s.v < 2 ^ 32
  ql : s.q < 2 ^ 32
  rl : s.r < 2 ^ 32

theorem divsteps30_step_rel {c : ℤ} {N j : ℕ} (hN : N ≤ 32) (hj : j < N) {s : DivVars} {m : MS}
    (h : DivRel c N j s m) (hz : |m.s.z| < 2 ^ 30) (hodd : m.s.f % 2 = 1) :
    DivRel c N (j + 1) (divsteps30Step s) (mstep 2 m) := by
  obtain ⟨z, f, g, u, v, q, r, fl, gl, ul, vl, ql, rl⟩ := h
  rw [abs_lt] at hz
  obtain ⟨k, hk⟩ : ∃ k, N - j = k + 1 := ⟨N - j - 1, by omega⟩
  have hk' : N - (j + 1) = k := by omega
  rw [hk] at f g
  have hpar := g.parity (by omega)
  have hfpar := f.parity (by omega)
  have shr : ∀ {x : ℕ}, x < 2 ^ 32 → x >>> 1 < 2 ^ 32 := by
    intro x hx; rw [Nat.shiftRight_eq_div_pow]; omega
  by_cases c1 : m.s.g % 2 = 0
  · rw [divsteps30Step_even (by omega) (by omega) fl gl ul vl ql rl (by omega)]
    have em : mstep 2 m = ⟨⟨m.s.z - 1, m.s.f, m.s.g / 2⟩, 2 * m.u, 2 * m.v, m.q, m.r⟩ := by
      unfold mstep divstep; rw [if_pos c1, if_pos c1]
    rw [em]
    refine ⟨by rw [z], ?_, ?_, ?_, ?_, q, r, fl, shr gl, u32_lt' _, u32_lt' _, ql, rl⟩
    · rw [hk']; exact f.mono (by omega)
    · rw [hk']; exact g.halves c1
    · exact u.dbl32.congr (by ring)
    · exact v.dbl32.congr (by ring)
  by_cases c2 : m.s.z < 0
  · rw [divsteps30Step_swap (by omega) (by omega) fl ul vl (by omega)]
    have em : mstep 2 m = ⟨⟨-m.s.z - 2, m.s.g, (m.s.g - m.s.f) / 2⟩, 2 * m.q, 2 * m.r, m.q - m.u,
        m.r - m.v⟩ := by
      unfold mstep divstep; rw [if_neg c1, if_neg c1, if_pos c2, if_pos c2]
    rw [em]
    have g1 : Cong (k + 1) (u32 (s.g + u32 (2 ^ 32 - s.f))) (m.s.g - m.s.f) :=
      ((g.add ((f.neg32 fl.le (by omega)).u32 (by omega))).u32 (by omega)).congr (by ring)
    have q1 : Cong 32 (u32 (s.q + u32 (2 ^ 32 - s.u))) (c * (m.q - m.u)) :=
      ((q.add ((u.neg32 ul.le (by omega)).u32 (by omega))).u32 (by omega)).congr (by ring)
    have r1 : Cong 32 (u32 (s.r + u32 (2 ^ 32 - s.v))) (c * (m.r - m.v)) :=
      ((r.add ((v.neg32 vl.le (by omega)).u32 (by omega))).u32 (by omega)).congr (by ring)
    refine ⟨by dsimp only; rw [z], ?_, ?_, ?_, ?_, q1, r1, u32_lt' _, shr (u32_lt' _), u32_lt' _,
      u32_lt' _, u32_lt' _, u32_lt' _⟩
    · rw [hk']
      exact (((f.add g1).u32 (by omega)).congr (by ring)).mono (by omega)
    · rw [hk']; exact g1.halves (by omega)
    · exact (((u.add q1).u32 (le_refl _)).dbl32).congr (by ring)
    · exact (((v.add r1).u32 (le_refl _)).dbl32).congr (by ring)
  · rw [divsteps30Step_add (by omega) (by omega) fl ul vl (by omega)]
    have em : mstep 2 m = ⟨⟨m.s.z - 1, m.s.f, (m.s.g + m.s.f) / 2⟩, 2 * m.u, 2 * m.v, m.q + m.u,
        m.r + m.v⟩ := by
      unfold mstep divstep; rw [if_neg c1, if_neg c1, if_neg c2, if_neg c2]
    rw [em]
    have g1 : Cong (k + 1) (u32 (s.g + s.f)) (m.s.g + m.s.f) := (g.add f).u32 (by omega)
    refine ⟨by dsimp only; rw [z], ?_, ?_, ?_, ?_, ?_, ?_, fl, shr (u32_lt' _), u32_lt' _, u32_lt' _,
      u32_lt' _, u32_lt' _⟩
    · rw [hk']; exact f.mono (by omega)
    · rw [hk']; exact g1.halves (by omega)
    · exact u.dbl32.congr (by ring)
    · exact v.dbl32.congr (by ring)
    · exact ((q.add u).u32 (le_refl _)).congr (by ring)
    · exact ((r.add v).u32 (le_refl _)).congr (by ring)

/-- The matrix as the C code returns it, `c` times the integer one. -/
theorem DivRel.trans {c B : ℤ} {N j : ℕ} {s : DivVars} {m : MS} {F G : ℤ} (h : DivRel c N j s m)
    (hi : MInv F G j m) (hc : 0 < c) (hB : c * 2 ^ j ≤ 2 ^ 30) :
    trans s = ⟨c * m.u, c * m.v, c * m.q, c * m.r⟩ := by
  have key : ∀ x y : ℤ, |x| + |y| ≤ 2 ^ j → -2 ^ 31 ≤ c * x ∧ c * x < 2 ^ 31 := by
    intro x y hxy
    have h1 : |x| ≤ 2 ^ j := by have := abs_nonneg y; linarith
    have h2 : |c * x| ≤ 2 ^ 30 := by
      rw [abs_mul, abs_of_pos hc]
      exact (mul_le_mul_of_nonneg_left h1 hc.le).trans hB
    rw [abs_le] at h2
    omega
  have hu := key _ _ hi.uv
  have hv := key m.v m.u (by linarith [hi.uv])
  have hq := key _ _ hi.qr
  have hr := key m.r m.q (by linarith [hi.qr])
  unfold M32.trans
  rw [h.u.toI32 hu.1 hu.2, h.v.toI32 hv.1 hv.2, h.q.toI32 hq.1 hq.2, h.r.toI32 hr.1 hr.2]

/-- The 30 steps. -/
theorem divsteps30_spec {z F G : ℤ} {f0 g0 : ℕ} (hF : F % 2 = 1) (hz : |z| < 2 ^ 29)
    (hf0 : f0 < 2 ^ 32) (hg0 : g0 < 2 ^ 32) (hf : Cong 30 f0 F) (hg : Cong 30 g0 G) :
    divsteps30 z f0 g0 = ((mrun 2 30 ⟨z, F, G⟩).s.z,
      ⟨(mrun 2 30 ⟨z, F, G⟩).u, (mrun 2 30 ⟨z, F, G⟩).v,
        (mrun 2 30 ⟨z, F, G⟩).q, (mrun 2 30 ⟨z, F, G⟩).r⟩) := by
  have key : ∀ j ≤ 30, DivRel 1 30 j (divsteps30Step^[j] ⟨z, f0, g0, 1, 0, 0, 1⟩)
      (mrun 2 j ⟨z, F, G⟩) := by
    intro j hj
    induction j with
    | zero =>
      exact ⟨rfl, hf, hg, Cong.of_eq rfl, Cong.of_eq rfl, Cong.of_eq rfl, Cong.of_eq rfl, hf0, hg0,
        (by decide : 1 < 2 ^ 32), (by decide : 0 < 2 ^ 32), (by decide : 0 < 2 ^ 32),
        (by decide : 1 < 2 ^ 32)⟩
    | succ j ih =>
      rw [Function.iterate_succ_apply', mrun_succ]
      have hm := mrun_inv 2 (z := z) (G := G) hF j
      refine divsteps30_step_rel (by norm_num) (by omega) (ih (by omega)) ?_ hm.odd
      rw [mrun_s]
      have := run_z (κ := 2) (Or.inr rfl) j (s := ⟨z, F, G⟩)
      dsimp only at this
      omega
  have h := key 30 (le_refl _)
  unfold divsteps30
  dsimp only
  rw [h.trans (B := 0) (mrun_inv 2 hF 30) (by norm_num) (by norm_num), h.z]
  simp only [one_mul]

end Secp.Model.M32
