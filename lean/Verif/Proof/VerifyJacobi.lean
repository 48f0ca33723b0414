import Verif.Model.VerifyJacobi
import Verif.Proof.VerifyModinvVarAll
import Verif.Proof.Jacobi64

/-!
The Jacobi symbol with all the checks of a `VERIFY` build.
-/

namespace Secp.Model.Verify
open Secp Secp.Divstep

/-- What the checks need of the rows of the matrix, beside `PRow`. -/
structure DetRow (k : ℕ) (u v q r : ℤ) : Prop where
  det : u * r - v * q = 2 ^ k ∨ u * r - v * q = -2 ^ k
  r1 : 0 < r

theorem DetRow.shift {k : ℕ} {u v q r : ℤ} (h : DetRow k u v q r) (c : ℕ) :
    DetRow (k + c) (2 ^ c * u) (2 ^ c * v) q r := by
  obtain ⟨h1, h2⟩ := h
  refine ⟨?_, h2⟩
  rw [pow_add]
  rcases h1 with h1 | h1
  · left; linear_combination 2 ^ c * h1
  · right; linear_combination 2 ^ c * h1

theorem DetRow.add {k : ℕ} {u v q r w : ℤ} (h : DetRow k u v q r) (hv : 0 ≤ v) (hw : 0 ≤ w) :
    DetRow k u v (q + w * u) (r + w * v) := by
  obtain ⟨h1, h2⟩ := h
  refine ⟨?_, by positivity⟩
  rcases h1 with h1 | h1
  · left; linear_combination h1
  · right; linear_combination h1

theorem DetRow.swapAdd {k : ℕ} {u v q r w : ℤ} (h : DetRow k u v q r) (hv : 0 ≤ v) (hw : 0 < w) :
    DetRow k q r (u + w * q) (v + w * r) := by
  obtain ⟨h1, h2⟩ := h
  refine ⟨?_, by positivity⟩
  rcases h1 with h1 | h1
  · right; linear_combination -h1
  · left; linear_combination -h1

theorem posLoopV_ok (k : ℕ) {f0 g0 : ℕ} : ∀ {i L : ℕ} {s : DivVars} {z : ℤ} {f : ℕ} {g' u v q r : ℤ}
    {jac : ℕ}, 1 ≤ i → i ≤ 62 → L ≤ i → (i < k ∨ (1 ≤ L ∧ i ≤ k)) → |z| + 2 * i ≤ 2 ^ 29 →
    f % 2 = 1 → 0 ≤ g' → PRow f0 g0 (62 - i) u v f → PRow f0 g0 (62 - i + L) q r g' →
    DetRow (62 - i) u v q r →
    VRel (i + 2) s ⟨⟨z, f, 2 ^ L * g'⟩, u, v, q, r⟩ →
    ∃ (t : DivVars) (jac' : ℕ) (z' : ℤ) (f1 : ℕ) (g1 u1 v1 q1 r1 : ℤ),
      posdivsteps62VarLoopV f0 g0 k s i jac = some (t, jac') ∧
      posdivsteps62VarLoop k s i jac = some (t, jac') ∧
      PRow f0 g0 62 u1 v1 f1 ∧ PRow f0 g0 62 q1 r1 g1 ∧ DetRow 62 u1 v1 q1 r1 ∧
      VRel 2 t ⟨⟨z', f1, g1⟩, u1, v1, q1, r1⟩ := by
  induction k with
  | zero => intro i L s z f g' u v q r jac _ _ h1 h2; omega
  | succ k ih =>
    intro i L s z f g' u v q r jac hi1 hi hL hk hz hf hg0 hu hq hd h
    have hz0 : |z| ≤ 2 ^ 29 := by omega
    obtain ⟨t, c, g'', ev, e, hLc, hc, hg, hodd, ht⟩ := shiftZerosV_spec hi hL (by omega) h
    have hg''0 : 0 ≤ g'' := by
      rw [hg] at hg0
      exact nonneg_of_mul_nonneg_right hg0 (by positivity)
    have hu' := hu.shift c
    have hd' := hd.shift c
    have hq' : PRow f0 g0 (62 - (i - c)) q r g'' := by
      rw [hg] at hq
      have := hq.mono
      rwa [show 62 - i + L + (c - L) = 62 - (i - c) by omega] at this
    rw [show 62 - i + c = 62 - (i - c) by omega] at hu' hd'
    obtain ⟨jac1, hj1⟩ : ∃ jac1, jac1 = (jac ^^^ (c &&& ((t.f >>> 1) ^^^ (t.f >>> 2)))) % 2 ^ 32 := ⟨_, rfl⟩
    unfold posdivsteps62VarLoopV posdivsteps62VarLoop
    rw [e, Option.bind_some]
    dsimp only
    rw [← hj1]
    have hzc : |z - (c : ℤ)| ≤ |z| + c := by
      have := abs_sub z (c : ℤ)
      rwa [abs_of_nonneg (Int.natCast_nonneg c)] at this
    by_cases hi0 : i - c = 0
    · rw [if_pos hi0]
      rw [hi0] at ht hu' hq' hd'
      refine ⟨t, jac1, z - c, f, g'', _, _, _, _, bind_step ev ?_, rfl, hu', hq', hd', ht⟩
      dsimp only
      rw [if_pos hi0, ← hj1]
    rw [if_neg hi0]
    have hgo := hodd (by omega)
    obtain ⟨gn, rfl⟩ : ∃ gn : ℕ, g'' = gn := ⟨g''.toNat, by omega⟩
    have tz : t.z = z - c := ht.z
    have hfo : t.f % 2 = 1 := by
      have := ht.f.parity (by omega); dsimp only at this; omega
    have hgo' : t.g % 2 = 1 := by
      have := ht.g.parity (by omega); dsimp only at this; omega
    have wf : u64 (u64 (t.u * f0) + u64 (t.v * g0)) = u64 (t.f <<< (62 - (i - c))) :=
      word_check_var (by omega) ht.u ht.v (ht.f.mono (by omega)) hu'.eq.symm
    have wg : u64 (u64 (t.q * f0) + u64 (t.r * g0)) = u64 (t.g <<< (62 - (i - c))) :=
      word_check_var (by omega) ht.q ht.r (ht.g.mono (by omega)) hq'.eq.symm
    have pre : ∀ {β : Type} {y : β} {K : Option β}, K = some y →
        (do
          check (decide (t.f &&& 1 = 1))
          check (decide (t.g &&& 1 = 1))
          check (decide (u64 (u64 (t.u * f0) + u64 (t.v * g0)) = u64 (t.f <<< (62 - (i - c)))))
          check (decide (u64 (u64 (t.q * f0) + u64 (t.r * g0)) = u64 (t.g <<< (62 - (i - c)))))
          K) = some y := by
      intro β y K hK
      refine bind_step (check_true (decide_eq_true (by rw [Nat.and_one_is_mod]; exact hfo))) ?_
      refine bind_step (check_true (decide_eq_true (by rw [Nat.and_one_is_mod]; exact hgo'))) ?_
      exact bind_step (check_true (decide_eq_true wf)) (bind_step (check_true (decide_eq_true wg)) hK)
    rw [abs_le] at hz0
    by_cases hneg : t.z < 0
    · rw [if_pos hneg, i64?_some (by omega) (by omega), Option.bind_some]
      obtain ⟨L', l1, l2, l3, l4, hmv, hm⟩ := limitMaskV_spec (eta := -t.z) (i := i - c) (t := 6) (by omega)
        (by omega) (by omega) (by omega) (Or.inr rfl)
      rw [show (63 : ℕ) = 2 ^ 6 - 1 from rfl, hm, Option.bind_some]
      have hsw : VRel (i - c + 2) ⟨-t.z, t.g, t.f, t.q, t.r, t.u, t.v⟩
          ⟨⟨-(z - c), (gn : ℤ), (f : ℤ)⟩, q, r, 2 ^ c * u, 2 ^ c * v⟩ := by
        refine ⟨⟨ht.w.gl, ht.w.fl, ht.w.ql, ht.w.rl, ht.w.ul, ht.w.vl⟩, ?_, ht.g, ht.f, ht.q, ht.r,
          ht.u, ht.v⟩
        dsimp only; rw [tz]
      obtain ⟨w1, w2⟩ := cancel6_spec (f := t.g) (g := t.f) hgo' l4
      have hck : (addMultiple (⟨-t.z, t.g, t.f, t.q, t.r, t.u, t.v⟩ : DivVars)
          (cancel6 t.g t.f (2 ^ L' - 1))).g &&& (2 ^ L' - 1) = 0 :=
        cancel_check l2 (by omega) w2
      obtain ⟨w, hw⟩ : ∃ w, w = cancel6 t.g t.f (2 ^ L' - 1) := ⟨_, rfl⟩
      rw [← hw] at w1 w2 hck
      have hw0 : 0 < w := by
        rcases Nat.eq_zero_or_pos w with h0 | h0
        · exfalso
          rw [h0, zero_mul, add_zero] at w2
          have : 2 ∣ t.f := (dvd_pow_self 2 (by omega)).trans w2
          omega
        · exact h0
      have hcl := cong_clear (c := w) hsw.f hsw.g (by omega) w2
      dsimp only at hcl
      obtain ⟨g3, hg3⟩ := hcl
      have hadd := addMultiple_rel (w := w) (by omega) hsw
      rw [hg3] at hadd
      have hg3' : 0 ≤ g3 := by
        have : (0 : ℤ) ≤ 2 ^ L' * g3 := by rw [← hg3]; positivity
        exact nonneg_of_mul_nonneg_right this (by positivity)
      have hr := hq'.add hu' w1 hg3.symm
      obtain ⟨t', jac', z', f1, g1, u1, v1, q1, r1, vt', et', a3, a4, a5, a6⟩ := ih (i := i - c)
        (L := L') (jac := (jac1 ^^^ ((t.g &&& t.f) >>> 1)) % 2 ^ 32) (by omega) (by omega) l2 (by omega)
        (by rw [abs_neg]; omega) (by omega) hg3' hq' hr
        (hd'.swapAdd hu'.v0 (by exact_mod_cast hw0)) hadd
      refine ⟨t', jac', z', f1, g1, u1, v1, q1, r1, bind_step ev ?_, by rw [← hw]; exact et', a3, a4, a5, a6⟩
      dsimp only
      rw [if_neg hi0, ← hj1]
      refine pre ?_
      rw [if_pos hneg]
      refine bind_step (i64?_some (by omega) (by omega)) (bind_step hmv ?_)
      rw [← hw]
      exact bind_step (check_true (decide_eq_true hck)) vt'
    · rw [if_neg hneg]
      obtain ⟨L', l1, l2, l3, l4, hmv, hm⟩ := limitMaskV_spec (eta := t.z) (i := i - c) (t := 4) (by omega)
        (by omega) (by omega) (by omega) (Or.inl rfl)
      rw [show (15 : ℕ) = 2 ^ 4 - 1 from rfl, hm, Option.bind_some]
      obtain ⟨w1, w2⟩ := cancel4_spec (f := t.f) (g := t.g) hfo l4
      obtain ⟨w, hw⟩ : ∃ w, w = cancel4 t.f t.g (2 ^ L' - 1) := ⟨_, rfl⟩
      rw [← hw] at w1 w2
      have hck : (addMultiple t w).g &&& (2 ^ L' - 1) = 0 := cancel_check l2 (by omega) w2
      have hcl := cong_clear (c := w) ht.f ht.g (by omega) w2
      dsimp only at hcl
      obtain ⟨g3, hg3⟩ := hcl
      have hadd := addMultiple_rel (w := w) (by omega) ht
      rw [hg3] at hadd
      have hg3' : 0 ≤ g3 := by
        have : (0 : ℤ) ≤ 2 ^ L' * g3 := by rw [← hg3]; positivity
        exact nonneg_of_mul_nonneg_right this (by positivity)
      have hr := hu'.add hq' w1 hg3.symm
      obtain ⟨t', jac', z', f1, g1, u1, v1, q1, r1, vt', et', a3, a4, a5, a6⟩ := ih (i := i - c)
        (L := L') (jac := jac1) (by omega) (by omega) l2 (by omega) (by omega) hf hg3' hu' hr
        (hd'.add hu'.v0 (by positivity)) hadd
      refine ⟨t', jac', z', f1, g1, u1, v1, q1, r1, bind_step ev ?_, by rw [← hw]; exact et', a3, a4, a5, a6⟩
      dsimp only
      rw [if_neg hi0, ← hj1]
      refine pre ?_
      rw [if_neg hneg]
      refine bind_step hmv ?_
      rw [← hw]
      exact bind_step (check_true (decide_eq_true hck)) vt'

theorem posdivsteps62VarV_ok {z : ℤ} {f0 g0 jac : ℕ} (hF : f0 % 2 = 1) (hf0 : f0 < 2 ^ 64)
    (hg0 : g0 < 2 ^ 64) (hz : |z| ≤ 2 ^ 20) :
    posdivsteps62VarV z f0 g0 jac = posdivsteps62Var z f0 g0 jac ∧
    ∃ z' u1 v1 q1 r1 jac', posdivsteps62Var z f0 g0 jac = some (z', ⟨u1, v1, q1, r1⟩, jac') ∧
      DetRow 62 u1 v1 q1 r1 := by
  obtain ⟨t, jac', z', f1, g1, u1, v1, q1, r1, ev, e, a4, a5, hd, a6⟩ := posLoopV_ok 63
    (f0 := f0) (g0 := g0) (i := 62) (L := 0) (s := ⟨z, f0, g0, 1, 0, 0, 1⟩) (z := z) (f := f0) (g' := g0)
    (u := 1) (v := 0) (q := 0) (r := 1) (jac := jac) (by norm_num) (le_refl _) (by norm_num)
    (Or.inl (by norm_num)) (by push_cast; omega) hF (Int.natCast_nonneg g0)
    ⟨by norm_num, by norm_num, by norm_num, by simp⟩
    ⟨by norm_num, by norm_num, by norm_num, by simp⟩ ⟨by norm_num, by norm_num⟩
    ⟨⟨hf0, hg0, by norm_num, by norm_num, by norm_num, by norm_num⟩, rfl, Cong.of_eq rfl,
      by rw [pow_zero, one_mul]; exact Cong.of_eq rfl, Cong.of_eq rfl, Cong.of_eq rfl, Cong.of_eq rfl, Cong.of_eq rfl⟩
  have key : ∀ x y : ℤ, 0 ≤ x → 0 ≤ y → x + y ≤ 2 ^ 62 → -2 ^ 63 ≤ x ∧ x < 2 ^ 63 := by
    intro x y _ _ _; omega
  have hu := key _ _ a4.u0 a4.v0 a4.le
  have hv := key _ _ a4.v0 a4.u0 (by have := a4.le; omega)
  have hq := key _ _ a5.u0 a5.v0 a5.le
  have hr := key _ _ a5.v0 a5.u0 (by have := a5.le; omega)
  have et : t.trans = ⟨u1, v1, q1, r1⟩ := by
    unfold DivVars.trans
    rw [a6.u.toI64 hu.1 hu.2, a6.v.toI64 hv.1 hv.2, a6.q.toI64 hq.1 hq.2, a6.r.toI64 hr.1 hr.2]
  have bd : ∀ {a b c d : ℤ}, 0 ≤ a → 0 ≤ b → 0 ≤ c → 0 ≤ d → a + b ≤ 2 ^ 62 → c + d ≤ 2 ^ 62 →
      0 ≤ a * d ∧ a * d ≤ 2 ^ 124 := by
    intro a b c d h1 h2 h3 h4 h5 h6
    have : a * d ≤ 2 ^ 62 * 2 ^ 62 := mul_le_mul (by omega) (by omega) h4 (by norm_num)
    refine ⟨by positivity, ?_⟩
    norm_num at this ⊢
    omega
  have b1 := bd a4.u0 a4.v0 a5.u0 a5.v0 a4.le a5.le
  have b2 := bd a4.v0 a4.u0 a5.v0 a5.u0 (by have := a4.le; omega) (by have := a5.le; omega)
  refine ⟨?_, z', u1, v1, q1, r1, jac', ?_, hd⟩
  · unfold posdivsteps62VarV posdivsteps62Var
    rw [e, Option.bind_some]
    refine bind_step ev (bind_step (a := true) ?_ (bind_step (check_true rfl) rfl))
    dsimp only
    rw [et]
    unfold detCheckPow2Abs
    have hdet := hd.det
    dsimp only
    generalize u1 * r1 = A at *
    generalize v1 * q1 = B at *
    refine bind_step (i128?_some (by omega) (by omega)) (bind_step (i128?_some (by omega) (by omega))
      (bind_step (check_true ?_) (bind_step (i128?_some (by omega) (by omega)) (bind_step (check_true (by decide)) ?_))))
    · split <;> rw [decide_eq_true_eq] <;> omega
    · rcases hdet with h | h <;> rw [h] <;> simp
  · unfold posdivsteps62Var
    rw [e, Option.bind_some]
    dsimp only
    rw [et, a6.z]

theorem fgCheckPos_ok {M : Modinfo} {m : ℤ} (hM : M.Ok m) {A A' B B' : List ℤ} (hl : A.length ≤ 5)
    (hl' : A'.length = A.length) (sf : SmallL A) (sg : SmallL A')
    (f1 : 0 < limbsInt A) (f2 : limbsInt A ≤ m) (g1 : 0 < limbsInt A') (g2 : limbsInt A' < m) :
    fgCheckPos A.length (A ++ B) (A' ++ B') M = some () := by
  have hm1 := hM.ge
  have hm2 := hM.le
  have pf := padS_small sf
  have pg := padS_small sg
  have ef := padS_int hl
  have eg := padS_int (A := A') (by omega)
  have im : |M.modulus.int| ≤ 2 ^ 300 := by rw [hM.val, abs_le]; constructor <;> omega
  have iA : |(padS A).int| ≤ 2 ^ 300 := by rw [ef, abs_le]; constructor <;> omega
  have iA' : |(padS A').int| ≤ 2 ^ 300 := by rw [eg, abs_le]; constructor <;> omega
  obtain ⟨c1, e1, -, -, h1⟩ := mulCmp62_ok pf hM.small (k := 0) (by norm_num) iA im
  obtain ⟨c2, e2, -, -, h2⟩ := mulCmp62_ok pf hM.small (k := 1) (by norm_num) iA im
  obtain ⟨c3, e3, -, -, h3⟩ := mulCmp62_ok pg hM.small (k := 0) (by norm_num) iA' im
  obtain ⟨c4, e4, h4, -, -⟩ := mulCmp62_ok pg hM.small (k := 1) (by norm_num) iA' im
  rw [hM.val, ef] at h1 h2
  rw [hM.val, eg] at h3 h4
  rw [← mulCmp62Len_ok (B := B) pf iA] at e1 e2
  rw [← mulCmp62Len_ok (B := B') pg iA', hl'] at e3 e4
  unfold fgCheckPos
  refine bind_step e1 (bind_step (check_true ?_) (bind_step e2 (bind_step (check_true ?_)
    (bind_step e3 (bind_step (check_true ?_) (bind_step e4 (check_true ?_)))))))
  · rw [decide_eq_true_eq]; exact h1.mpr (by omega)
  · rw [decide_eq_true_eq]
    by_contra hc
    have := h2.mp (by omega)
    omega
  · rw [decide_eq_true_eq]; exact h3.mpr (by omega)
  · rw [decide_eq_true_eq]; exact h4.mpr (by omega)

/-- With `d` more passes the build without checks finds what the build with checks finds. -/
theorem jacobi64LoopV_ok {M : Modinfo} {m : ℤ} (hM : M.Ok m) (d : ℕ) (k : ℕ) :
    ∀ {F : ℕ} {G z : ℤ} {len jac : ℕ} {f g A A' B B' : List ℤ},
    |z| + 62 * k ≤ 2 ^ 20 → (F : ℤ) ≤ m → 0 < G → G < m → JacState m F G len f g A A' B B' →
    ∃ r, jacobi64LoopV M k len z jac f g = some r ∧
      (r = 0 ∨ jacobi64Loop (k + d) len z jac f g = some r) := by
  induction k with
  | zero => intro F G z len jac f g A A' B B' _ _ _ _ _; exact ⟨0, rfl, Or.inl rfl⟩
  | succ k ih =>
    intro F G z len jac f g A A' B B' hz hFm hGp hGm st
    obtain ⟨hodd, hG0, hlen5, rfl, rfl, rfl, lA', ne, vf, vg, cf, cg, sf, sg, zf, zg, lf, lg⟩ := st
    have hzb : |z| ≤ 2 ^ 20 := by push_cast at hz; omega
    obtain ⟨z', jac', f1, g1, u1, v1, q1, r1, e, hz', o1, p1, hu, hq, hj⟩ := posdivsteps62Var_spec
      (z := z) (jac := jac) hodd hG0 hzb (low64_lt _) (low64_lt _) lf lg
    have hlo : low64 (A ++ B) % 2 = 1 := by
      have := lf.parity (by norm_num)
      omega
    obtain ⟨ev, z2, u2, v2, q2, r2, j2, e', hd⟩ := posdivsteps62VarV_ok (jac := jac) hlo (low64_lt (A ++ B))
      (low64_lt (A' ++ B')) hzb
    have hd : DetRow 62 u1 v1 q1 r1 := by
      rw [e] at e'
      obtain ⟨-, h2⟩ := Prod.mk.inj (Option.some.inj e')
      obtain ⟨h3, -⟩ := Prod.mk.inj h2
      obtain ⟨rfl, rfl, rfl, rfl⟩ := Trans.mk.inj h3
      exact hd
    rw [e] at ev
    have iu : |u1| + |v1| ≤ 2 ^ 62 := by rw [abs_of_nonneg hu.u0, abs_of_nonneg hu.v0]; exact hu.le
    have iq : |q1| + |r1| ≤ 2 ^ 62 := by rw [abs_of_nonneg hq.u0, abs_of_nonneg hq.v0]; exact hq.le
    have cf' := row_bound hu.eq.symm iu cf cg
    have cg' := row_bound hq.eq.symm iq cf cg
    have x1 : 2 ^ 62 * (f1 : ℤ) = u1 * limbsInt A + v1 * limbsInt A' := by rw [vf, vg]; exact hu.eq.symm
    have x2 : 2 ^ 62 * g1 = q1 * limbsInt A + r1 * limbsInt A' := by rw [vf, vg]; exact hq.eq.symm
    -- the ranges of the new values
    have hm0 : 0 < m := by omega
    have hf1m : (f1 : ℤ) ≤ m := by
      have a1 := mul_le_mul_of_nonneg_left hFm hu.u0
      have a2 := mul_le_mul_of_nonneg_left hGm.le hu.v0
      have a3 := mul_le_mul_of_nonneg_right hu.le hm0.le
      have := hu.eq
      nlinarith
    have hg1m : g1 < m := by
      have a1 := mul_le_mul_of_nonneg_left hFm hq.u0
      have a2 := mul_lt_mul_of_pos_left hGm hd.r1
      have a3 := mul_le_mul_of_nonneg_right hq.le hm0.le
      have := hq.eq
      nlinarith
    have hg1p : 0 < g1 := by
      have a1 : 0 ≤ q1 * (F : ℤ) := mul_nonneg hq.u0 (Int.natCast_nonneg F)
      have a2 := mul_pos hd.r1 hGp
      have := hq.eq
      omega
    obtain ⟨Fl, eF, lF, hF, vF⟩ := fgVarRow_spec (B := B) (B' := B') iu ne lA'.symm sf sg x1 cf'
    obtain ⟨Gl, eG, lG, hG, vG⟩ := fgVarRow_spec (B := B) (B' := B') iq ne lA'.symm sf sg x2 cg'
    have hFne : Fl ≠ [] := by rintro rfl; exact ne (List.eq_nil_of_length_eq_zero lF.symm)
    have hGne : Gl ≠ [] := by rintro rfl; exact ne (List.eq_nil_of_length_eq_zero lG.symm)
    have hupd : updateFg62Var A.length (A ++ B) (A' ++ B') ⟨u1, v1, q1, r1⟩ =
        some (Fl ++ B, Gl ++ B') := by
      unfold updateFg62Var
      dsimp only
      rw [eF, Option.bind_some, eG, Option.bind_some, List.drop_left, ← lA', List.drop_left]
    have hupdV : updateFg62VarV A.length (A ++ B) (A' ++ B') ⟨u1, v1, q1, r1⟩ =
        some (Fl ++ B, Gl ++ B') := by
      rw [updateFg62VarV_ok iu iq ne lA'.symm sf sg x1 cf' x2 cg', hupd]
    have hck : fgCheckPos A.length (A ++ B) (A' ++ B') M = some () :=
      fgCheckPos_ok hM hlen5 lA' sf sg (by rw [vf]; omega) (by rw [vf]; exact hFm) (by rw [vg]; exact hGp)
        (by rw [vg]; exact hGm)
    rw [show k + 1 + d = (k + d) + 1 by omega]
    unfold jacobi64LoopV jacobi64Loop
    rw [e, Option.bind_some]
    dsimp only
    rw [hupd, Option.bind_some]
    dsimp only
    have pre : ∀ {y : ℤ} {K : Option ℤ}
        {K' : (ℤ × Trans × ℕ) → (List ℤ × List ℤ) → Option ℤ}, K' (z', ⟨u1, v1, q1, r1⟩, jac') (Fl ++ B, Gl ++ B') = K →
        K = some y →
        (do
          let et ← posdivsteps62VarV z (low64 (A ++ B)) (low64 (A' ++ B')) jac
          fgCheckPos A.length (A ++ B) (A' ++ B') M
          let fg ← updateFg62VarV A.length (A ++ B) (A' ++ B') et.2.1
          K' et fg) = some y := by
      intro y K K' h1 h2
      exact bind_step ev (bind_step hck (bind_step hupdV (h1.trans h2)))
    have hone := fone_iff (B := B) hF
    rw [lF, vF] at hone
    have hlastF : (Fl ++ B).getD (A.length - 1) 0 = Fl.getLast hFne := by rw [← lF]; exact getD_last hFne
    have hlastG : (Gl ++ B').getD (A.length - 1) 0 = Gl.getLast hGne := by rw [← lG]; exact getD_last hGne
    have tF : |Fl.getLast hFne| ≤ 2 ^ 62 := hF.small _ (List.getLast_mem hFne)
    have tG : |Gl.getLast hGne| ≤ 2 ^ 62 := hG.small _ (List.getLast_mem hGne)
    by_cases hstop : (f1 : ℤ) = 1
    · rw [if_pos (hone.mpr hstop)]
      refine ⟨_, pre (K := some (1 - 2 * ((jac' &&& 1 : ℕ) : ℤ))) ?_ rfl, Or.inr rfl⟩
      rw [if_pos (hone.mpr hstop)]
    · rw [if_neg (fun h => hstop (hone.mp h)), hlastF, hlastG]
      have hsc := jacShrink_iff hlen5 tF tG
      by_cases hsh : or64 (or64 (((A.length : ℤ) - 2) / 2 ^ 63) (Fl.getLast hFne)) (Gl.getLast hGne) = 0
      · rw [if_pos hsh]
        obtain ⟨s1, s2, s3⟩ := hsc.mp hsh
        obtain ⟨C, eC, lC, hC, vC, bC⟩ := dropTop_spec hF (by omega) hFne s2
        obtain ⟨C', eC', lC', hC', vC', bC'⟩ := dropTop_spec hG (by omega) hGne s3
        have zf' : ∀ b ∈ 0 :: B, b = 0 := by
          intro b hb; rcases List.mem_cons.mp hb with h | h; exacts [h, zf b h]
        have zg' : ∀ b ∈ 0 :: B', b = 0 := by
          intro b hb; rcases List.mem_cons.mp hb with h | h; exacts [h, zg b h]
        have hfe : Fl ++ B = C ++ (0 :: B) := by rw [eC]; simp
        have hge : Gl ++ B' = C' ++ (0 :: B') := by rw [eC']; simp
        have wF : limbsInt C = f1 := by rw [vC, vF]
        have wG : limbsInt C' = g1 := by rw [vC', vG]
        have st' : JacState m f1 g1 (A.length - 1) (Fl ++ B) (Gl ++ B') C C' (0 :: B) (0 :: B') := by
          refine ⟨o1, p1, by omega, hfe, hge, by omega, by omega, by rintro rfl; exact hC, wF, wG, ?_, ?_,
            hC.small, hC'.small, zf', zg', ?_, ?_⟩
          · rw [wF, lC, lF] at bC; exact bC
          · rw [wG, lC', lG] at bC'; exact bC'
          · rw [hfe, ← wF]; exact low64_low hC (by rw [wF]; exact Int.natCast_nonneg f1) zf'
          · rw [hge, ← wG]; exact low64_low hC' (by rw [wG]; exact p1) zg'
        have hck' : fgCheckPos (A.length - 1) (Fl ++ B) (Gl ++ B') M = some () := by
          have := fgCheckPos_ok hM (A := C) (A' := C') (B := 0 :: B) (B' := 0 :: B') (by omega) (by omega) hC.small
            hC'.small (by rw [wF]; omega) (by rw [wF]; exact hf1m) (by rw [wG]; exact hg1p) (by rw [wG]; exact hg1m)
          rw [hfe, hge, show A.length - 1 = C.length by omega]
          exact this
        obtain ⟨r, h1, h2⟩ := ih (z := z') (jac := jac') (by push_cast at hz; omega) hf1m hg1p hg1m st'
        refine ⟨r, pre rfl ?_, h2⟩
        dsimp only
        rw [if_neg (fun h => hstop (hone.mp h)), hlastF, hlastG, if_pos hsh]
        exact bind_step hck' h1
      · rw [if_neg hsh]
        have st' : JacState m f1 g1 A.length (Fl ++ B) (Gl ++ B') Fl Gl B B' := by
          refine ⟨o1, p1, hlen5, rfl, rfl, lF, lG, hFne, vF, vG, cf', cg', hF.small, hG.small, zf, zg, ?_, ?_⟩
          · rw [← vF]; exact low64_low hF (by rw [vF]; exact Int.natCast_nonneg f1) zf
          · rw [← vG]; exact low64_low hG (by rw [vG]; exact p1) zg
        have hck' : fgCheckPos A.length (Fl ++ B) (Gl ++ B') M = some () := by
          have := fgCheckPos_ok hM (A := Fl) (A' := Gl) (B := B) (B' := B') (by omega) (by omega) hF.small
            hG.small (by rw [vF]; omega) (by rw [vF]; exact hf1m) (by rw [vG]; exact hg1p) (by rw [vG]; exact hg1m)
          rw [lF] at this
          exact this
        obtain ⟨r, h1, h2⟩ := ih (z := z') (jac := jac') (by push_cast at hz; omega) hf1m hg1p hg1m st'
        refine ⟨r, pre rfl ?_, h2⟩
        dsimp only
        rw [if_neg (fun h => hstop (hone.mp h)), hlastF, hlastG, if_neg hsh]
        exact bind_step hck' h1

/-- The two checks at the start and the loop. -/
theorem jacobi64MaybeVarV_ok {M : Modinfo} {m : ℤ} (hM : M.Ok m)
    (hM' : 0 ≤ M.modulus.v0 ∨ M.modulus.v1 = 0) {x : S62} (hx : x.Canon) (h0 : x.int ≠ 0) (h1 : x.int < m) :
    ∃ r, jacobi64MaybeVarV x M = some r ∧ (r = 0 ∨ jacobi64MaybeVar x M = some r) := by
  have hm1 := hM.ge
  have hm2 := hM.le
  have hodd := hM.odd
  obtain ⟨mn, rfl⟩ : ∃ mn : ℕ, m = mn := ⟨m.toNat, by omega⟩
  obtain ⟨x0, x1, x2, x3, x4⟩ := id hx
  have hp : 0 < x.int := by
    have : 0 ≤ x.int := by unfold S62.int; omega
    omega
  have habs : |x.int| ≤ mn := by rw [abs_of_nonneg hp.le]; exact h1.le
  have hmabs : |(mn : ℤ)| ≤ mn := by rw [abs_of_nonneg (by omega)]
  have l0 := hM.l0
  rw [abs_lt] at l0
  have key : ∀ a : S62, a.v0 < 2 ^ 62 → (0 ≤ a.v0 ∨ (-2 ^ 62 < a.v0 ∧ a.v1 = 0)) →
      Cong 64 (low64 a.toList) a.int := by
    intro a h1 h2
    have := low64_cong (l := [a.v2, a.v3, a.v4]) (B := []) h1 h2
    rw [List.append_nil] at this
    rw [← limbsInt_toList]
    exact this
  have lf : Cong 64 (low64 M.modulus.toList) (mn : ℤ) :=
    (key M.modulus l0.2 (hM'.imp id fun h => ⟨l0.1, h⟩)).congr hM.val
  have lg := key x hx.v0.2 (Or.inl hx.v0.1)
  obtain ⟨r, e, hr⟩ := jacobi64LoopV_ok hM 13 12 (F := mn) (G := x.int) (z := -1) (len := 5)
    (jac := 0) (f := M.modulus.toList) (g := x.toList) (A := M.modulus.toList) (A' := x.toList)
    (B := []) (B' := []) (by norm_num) (le_refl _) hp h1
    ⟨by omega, hp.le, le_refl _, by simp, by simp, rfl, rfl, by simp [S62.toList],
      by rw [limbsInt_toList, hM.val], limbsInt_toList x,
      hmabs.trans (hm2.trans (by norm_num)), habs.trans (hm2.trans (by norm_num)), hM.small.toList,
      hx.small.toList, by simp, by simp, lf, lg⟩
  refine ⟨r, ?_, hr⟩
  unfold jacobi64MaybeVarV
  refine bind_step (check_true ?_) (bind_step (check_true (decide_eq_true ?_)) e)
  · simp only [Bool.and_eq_true, decide_eq_true_eq]
    omega
  · intro h
    obtain ⟨r1, r2⟩ := or64_range x.v0 x.v1
    obtain ⟨r3, r4⟩ := or64_range (or64 x.v0 x.v1) x.v2
    obtain ⟨r5, r6⟩ := or64_range (or64 (or64 x.v0 x.v1) x.v2) x.v3
    rw [or64_eq_zero r5 r6 (by omega) (by omega), or64_eq_zero r3 r4 (by omega) (by omega),
      or64_eq_zero r1 r2 (by omega) (by omega), or64_eq_zero (by omega) (by omega) (by omega) (by omega)] at h
    apply h0
    unfold S62.int
    omega

end Secp.Model.Verify
