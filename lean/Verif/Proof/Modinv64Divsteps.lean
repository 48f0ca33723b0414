import Verif.Proof.Modinv64Base

/-!
`secp256k1_modinv64_divsteps_59` computes the matrix of 59 division steps, scaled by 8.
-/

namespace Secp.Model
open Secp.Divstep

theorem u64_lt (x : ℕ) : u64 x < 2 ^ 64 := Nat.mod_lt _ (by norm_num)

theorem toU64_sign_neg {z : ℤ} (h1 : -2 ^ 63 ≤ z) (h : z < 0) : toU64 (z / 2 ^ 63) = 2 ^ 64 - 1 := by
  rw [sign_neg h1 h]; decide

theorem toU64_sign_nonneg {z : ℤ} (h : 0 ≤ z) (h2 : z < 2 ^ 63) : toU64 (z / 2 ^ 63) = 0 := by
  rw [sign_nonneg h h2]; decide

/-- Even `g`. -/
theorem divsteps59Step_even {s : DivVars} (hz1 : -2 ^ 63 < s.z) (hz2 : s.z < 2 ^ 63)
    (hf : s.f < 2 ^ 64) (hg : s.g < 2 ^ 64) (hu : s.u < 2 ^ 64) (hv : s.v < 2 ^ 64)
    (hq : s.q < 2 ^ 64) (hr : s.r < 2 ^ 64) (he : s.g % 2 = 0) :
    divsteps59Step s = ⟨s.z - 1, s.f, s.g >>> 1, u64 (s.u <<< 1), u64 (s.v <<< 1), s.q, s.r⟩ := by
  unfold divsteps59Step
  have m2 : u64 (2 ^ 64 - (s.g &&& 1)) = 0 := by
    rw [Nat.and_one_is_mod, he]; decide
  simp only [m2, Nat.and_zero, Nat.add_zero, Nat.xor_zero]
  have e : ∀ {x : ℕ}, x < 2 ^ 64 → u64 x = x := fun h => Nat.mod_eq_of_lt h
  have hz : toI64 ((u64 (toU64 s.z + (2 ^ 64 - 1)) : ℕ) : ℤ) = s.z - 1 := by
    have hc := toU64_cast s.z
    unfold u64 toI64
    omega
  rw [e hg, e hf, e hu, e hv, e hq, e hr, hz]

/-- Odd `g`, counter not negative. -/
theorem divsteps59Step_add {s : DivVars} (hz0 : 0 ≤ s.z) (hz2 : s.z < 2 ^ 63)
    (hf : s.f < 2 ^ 64) (hu : s.u < 2 ^ 64) (hv : s.v < 2 ^ 64) (ho : s.g % 2 = 1) :
    divsteps59Step s = ⟨s.z - 1, s.f, u64 (s.g + s.f) >>> 1, u64 (s.u <<< 1), u64 (s.v <<< 1),
      u64 (s.q + s.u), u64 (s.r + s.v)⟩ := by
  unfold divsteps59Step
  have m2 : u64 (2 ^ 64 - (s.g &&& 1)) = 2 ^ 64 - 1 := by
    rw [Nat.and_one_is_mod, ho]; decide
  have e : ∀ {x : ℕ}, x < 2 ^ 64 → u64 x = x := fun h => Nat.mod_eq_of_lt h
  have x0 : ∀ {x : ℕ}, x < 2 ^ 64 → u64 (x + (2 ^ 64 - 0)) = x := by
    intro x hx; unfold u64; omega
  simp only [m2, toU64_sign_nonneg hz0 hz2, Nat.xor_zero, Nat.zero_and, Nat.and_zero, Nat.add_zero,
    x0 hf, x0 hu, x0 hv, land_ones64 hf, land_ones64 hu, land_ones64 hv, e hf, e hu, e hv]
  have hz : toI64 ((u64 (toU64 s.z + (2 ^ 64 - 1)) : ℕ) : ℤ) = s.z - 1 := by
    have hc := toU64_cast s.z
    unfold u64 toI64
    omega
  rw [hz]

/-- Odd `g`, negative counter. -/
theorem divsteps59Step_swap {s : DivVars} (hz1 : -2 ^ 63 < s.z) (hz : s.z < 0)
    (hf : s.f < 2 ^ 64) (hu : s.u < 2 ^ 64) (hv : s.v < 2 ^ 64) (ho : s.g % 2 = 1) :
    divsteps59Step s = ⟨-s.z - 2, u64 (s.f + u64 (s.g + u64 (2 ^ 64 - s.f))),
      u64 (s.g + u64 (2 ^ 64 - s.f)) >>> 1,
      u64 (u64 (s.u + u64 (s.q + u64 (2 ^ 64 - s.u))) <<< 1),
      u64 (u64 (s.v + u64 (s.r + u64 (2 ^ 64 - s.v))) <<< 1),
      u64 (s.q + u64 (2 ^ 64 - s.u)), u64 (s.r + u64 (2 ^ 64 - s.v))⟩ := by
  unfold divsteps59Step
  have m2 : u64 (2 ^ 64 - (s.g &&& 1)) = 2 ^ 64 - 1 := by
    rw [Nat.and_one_is_mod, ho]; decide
  have x1 : ∀ {x : ℕ}, x < 2 ^ 64 → u64 ((x ^^^ (2 ^ 64 - 1)) + (2 ^ 64 - (2 ^ 64 - 1))) =
      u64 (2 ^ 64 - x) := by
    intro x hx; rw [xor_ones64 hx]; congr 1; omega
  simp only [m2, toU64_sign_neg hz1.le hz, x1 hf, x1 hu, x1 hv, land_ones64 (u64_lt _),
    Nat.and_self]
  have hz' : toI64 ((u64 ((toU64 s.z ^^^ (2 ^ 64 - 1)) + (2 ^ 64 - 1)) : ℕ) : ℤ) = -s.z - 2 := by
    have hc := toU64_cast s.z
    rw [xor_ones64 (toU64_lt _)]
    have := toU64_lt s.z
    unfold u64 toI64
    omega
  rw [hz']

/-- The words of the loop stand for the state and the matrix (scaled by `c`) after `j` steps. -/
structure DivRel (c : ℤ) (N j : ℕ) (s : DivVars) (m : MS) : Prop where
  z : s.z = m.s.z
  f : Cong (N - j) s.f m.s.f
  g : Cong (N - j) s.g m.s.g
  u : Cong 64 s.u (c * m.u)
  v : Cong 64 s.v (c * m.v)
  q : Cong 64 s.q (c * m.q)
  r : Cong 64 s.r (c * m.r)
  fl : s.f < 2 ^ 64
  gl : s.g < 2 ^ 64
  ul : s.u < 2 ^ 64
  vl : s.v < 2 ^ 64
  ql : s.q < 2 ^ 64
  rl : s.r < 2 ^ 64

theorem Cong.dbl {a : ℕ} {x : ℤ} (h : Cong 64 a x) : Cong 64 (Model.u64 (a <<< 1)) (2 * x) := by
  refine Cong.u64 ?_ (le_refl _)
  rw [Nat.shiftLeft_eq]
  exact (h.mul (Cong.of_eq (x := 2) (by norm_num))).congr (by ring)

theorem divsteps59_step_rel {c : ℤ} {N j : ℕ} (hN : N ≤ 64) (hj : j + 1 < N) {s : DivVars} {m : MS}
    (h : DivRel c N j s m) (hz : |m.s.z| < 2 ^ 62) (hodd : m.s.f % 2 = 1) :
    DivRel c N (j + 1) (divsteps59Step s) (mstep 2 m) := by
  obtain ⟨z, f, g, u, v, q, r, fl, gl, ul, vl, ql, rl⟩ := h
  rw [abs_lt] at hz
  obtain ⟨k, hk⟩ : ∃ k, N - j = k + 1 := ⟨N - j - 1, by omega⟩
  have hk' : N - (j + 1) = k := by omega
  rw [hk] at f g
  have hpar := g.parity (by omega)
  have hfpar := f.parity (by omega)
  have shr : ∀ {x : ℕ}, x < 2 ^ 64 → x >>> 1 < 2 ^ 64 := by
    intro x hx; rw [Nat.shiftRight_eq_div_pow]; omega
  by_cases c1 : m.s.g % 2 = 0
  · rw [divsteps59Step_even (by omega) (by omega) fl gl ul vl ql rl (by omega)]
    have em : mstep 2 m = ⟨⟨m.s.z - 1, m.s.f, m.s.g / 2⟩, 2 * m.u, 2 * m.v, m.q, m.r⟩ := by
      unfold mstep divstep; rw [if_pos c1, if_pos c1]
    rw [em]
    refine ⟨by rw [z], ?_, ?_, ?_, ?_, q, r, fl, shr gl, u64_lt _, u64_lt _, ql, rl⟩
    · rw [hk']; exact f.mono (by omega)
    · rw [hk']; exact g.halves c1
    · exact u.dbl.congr (by ring)
    · exact v.dbl.congr (by ring)
  by_cases c2 : m.s.z < 0
  · rw [divsteps59Step_swap (by omega) (by omega) fl ul vl (by omega)]
    have em : mstep 2 m = ⟨⟨-m.s.z - 2, m.s.g, (m.s.g - m.s.f) / 2⟩, 2 * m.q, 2 * m.r, m.q - m.u,
        m.r - m.v⟩ := by
      unfold mstep divstep; rw [if_neg c1, if_neg c1, if_pos c2, if_pos c2]
    rw [em]
    have g1 : Cong (k + 1) (u64 (s.g + u64 (2 ^ 64 - s.f))) (m.s.g - m.s.f) :=
      ((g.add ((f.neg fl.le (by omega)).u64 (by omega))).u64 (by omega)).congr (by ring)
    have q1 : Cong 64 (u64 (s.q + u64 (2 ^ 64 - s.u))) (c * (m.q - m.u)) :=
      ((q.add ((u.neg ul.le (by omega)).u64 (by omega))).u64 (by omega)).congr (by ring)
    have r1 : Cong 64 (u64 (s.r + u64 (2 ^ 64 - s.v))) (c * (m.r - m.v)) :=
      ((r.add ((v.neg vl.le (by omega)).u64 (by omega))).u64 (by omega)).congr (by ring)
    refine ⟨by dsimp only; rw [z], ?_, ?_, ?_, ?_, q1, r1, u64_lt _, shr (u64_lt _), u64_lt _,
      u64_lt _, u64_lt _, u64_lt _⟩
    · rw [hk']
      exact (((f.add g1).u64 (by omega)).congr (by ring)).mono (by omega)
    · rw [hk']; exact g1.halves (by omega)
    · exact (((u.add q1).u64 (le_refl _)).dbl).congr (by ring)
    · exact (((v.add r1).u64 (le_refl _)).dbl).congr (by ring)
  · rw [divsteps59Step_add (by omega) (by omega) fl ul vl (by omega)]
    have em : mstep 2 m = ⟨⟨m.s.z - 1, m.s.f, (m.s.g + m.s.f) / 2⟩, 2 * m.u, 2 * m.v, m.q + m.u,
        m.r + m.v⟩ := by
      unfold mstep divstep; rw [if_neg c1, if_neg c1, if_neg c2, if_neg c2]
    rw [em]
    have g1 : Cong (k + 1) (u64 (s.g + s.f)) (m.s.g + m.s.f) := (g.add f).u64 (by omega)
    refine ⟨by dsimp only; rw [z], ?_, ?_, ?_, ?_, ?_, ?_, fl, shr (u64_lt _), u64_lt _, u64_lt _,
      u64_lt _, u64_lt _⟩
    · rw [hk']; exact f.mono (by omega)
    · rw [hk']; exact g1.halves (by omega)
    · exact u.dbl.congr (by ring)
    · exact v.dbl.congr (by ring)
    · exact ((q.add u).u64 (le_refl _)).congr (by ring)
    · exact ((r.add v).u64 (le_refl _)).congr (by ring)

/-- The matrix as the C code returns it, `c` times the integer one. -/
theorem DivRel.trans {c B : ℤ} {N j : ℕ} {s : DivVars} {m : MS} {F G : ℤ} (h : DivRel c N j s m)
    (hi : MInv F G j m) (hc : 0 < c) (hB : c * 2 ^ j ≤ 2 ^ 62) :
    s.trans = ⟨c * m.u, c * m.v, c * m.q, c * m.r⟩ := by
  have key : ∀ x y : ℤ, |x| + |y| ≤ 2 ^ j → -2 ^ 63 ≤ c * x ∧ c * x < 2 ^ 63 := by
    intro x y hxy
    have h1 : |x| ≤ 2 ^ j := by have := abs_nonneg y; linarith
    have h2 : |c * x| ≤ 2 ^ 62 := by
      rw [abs_mul, abs_of_pos hc]
      exact (mul_le_mul_of_nonneg_left h1 hc.le).trans hB
    rw [abs_le] at h2
    omega
  have hu := key _ _ hi.uv
  have hv := key m.v m.u (by linarith [hi.uv])
  have hq := key _ _ hi.qr
  have hr := key m.r m.q (by linarith [hi.qr])
  unfold DivVars.trans
  rw [h.u.toI64 hu.1 hu.2, h.v.toI64 hv.1 hv.2, h.q.toI64 hq.1 hq.2, h.r.toI64 hr.1 hr.2]

/-- The 59 steps. -/
theorem divsteps59_spec {z F G : ℤ} {f0 g0 : ℕ} (hF : F % 2 = 1) (hz : |z| < 2 ^ 61)
    (hf0 : f0 < 2 ^ 64) (hg0 : g0 < 2 ^ 64) (hf : Cong 62 f0 F) (hg : Cong 62 g0 G) :
    divsteps59 z f0 g0 = ((mrun 2 59 ⟨z, F, G⟩).s.z,
      ⟨8 * (mrun 2 59 ⟨z, F, G⟩).u, 8 * (mrun 2 59 ⟨z, F, G⟩).v,
        8 * (mrun 2 59 ⟨z, F, G⟩).q, 8 * (mrun 2 59 ⟨z, F, G⟩).r⟩) := by
  have key : ∀ j ≤ 59, DivRel 8 62 j (divsteps59Step^[j] ⟨z, f0, g0, 8, 0, 0, 8⟩)
      (mrun 2 j ⟨z, F, G⟩) := by
    intro j hj
    induction j with
    | zero =>
      exact ⟨rfl, hf, hg, Cong.of_eq rfl, Cong.of_eq rfl, Cong.of_eq rfl, Cong.of_eq rfl, hf0, hg0,
        (by decide : 8 < 2 ^ 64), (by decide : 0 < 2 ^ 64), (by decide : 0 < 2 ^ 64),
        (by decide : 8 < 2 ^ 64)⟩
    | succ j ih =>
      rw [Function.iterate_succ_apply', mrun_succ]
      have hm := mrun_inv 2 (z := z) (G := G) hF j
      refine divsteps59_step_rel (by norm_num) (by omega) (ih (by omega)) ?_ hm.odd
      rw [mrun_s]
      have := run_z (κ := 2) (Or.inr rfl) j (s := ⟨z, F, G⟩)
      dsimp only at this
      omega
  have h := key 59 (le_refl _)
  unfold divsteps59
  dsimp only
  rw [h.trans (B := 0) (mrun_inv 2 hF 59) (by norm_num) (by norm_num), h.z]

end Secp.Model
