import Verif.Model.VerifyModinv
import Verif.Proof.VerifyScalar4
import Verif.Proof.Modinv64Const

/-!
Helpers for the checks of a `VERIFY` build inside the constant-time modular inverse.
-/

namespace Secp.Model.Verify
open Secp Secp.Divstep

theorem i128ToI64V_ok {c : ℤ} (h1 : -2 ^ 63 ≤ c) (h2 : c < 2 ^ 63) : i128ToI64V c = some c := by
  unfold i128ToI64V
  refine bind_step (check_true (by simp only [decide_eq_true_eq]; exact ⟨h1, h2⟩)) ?_
  rw [i128ToI64, toI64_eq h1 h2]

theorem scale_le {x k : ℤ} (hx : |x| ≤ 2 ^ 62) (hk : |k| ≤ 2) : |x * k| ≤ 2 ^ 63 := by
  rw [abs_mul]
  calc |x| * |k| ≤ 2 ^ 62 * 2 := mul_le_mul hx hk (abs_nonneg _) (by norm_num)
    _ = 2 ^ 63 := by norm_num

theorem mul62_ok {a : S62} {k : ℤ} (ha : a.Small) (hk : |k| ≤ 2) (hint : |a.int| ≤ 2 ^ 300) :
    ∃ r, mul62 a k = some r ∧ r.Low ∧ r.int = k * a.int := by
  have b0 := scale_le ha.v0 hk
  have b1 := scale_le ha.v1 hk
  have b2 := scale_le ha.v2 hk
  have b3 := scale_le ha.v3 hk
  have b4 := scale_le ha.v4 hk
  have hsum : k * a.int = a.v0 * k + a.v1 * k * 2 ^ 62 + a.v2 * k * 2 ^ 124 + a.v3 * k * 2 ^ 186 +
      a.v4 * k * 2 ^ 248 := by unfold S62.int; ring
  have hX : |k * a.int| ≤ 2 ^ 301 := by
    rw [abs_mul]
    calc |k| * |a.int| ≤ 2 * 2 ^ 300 := mul_le_mul hk hint (abs_nonneg _) (by norm_num)
      _ = 2 ^ 301 := (pow_succ' 2 300).symm
  have step : ∀ {c x : ℤ}, |c| ≤ 2 ^ 64 → |x * k| ≤ 2 ^ 63 → i128AccumMul c x k = some (c + x * k) :=
    fun h1 h2 => accumMul_some (h2.trans (by norm_num)) (h1.trans (by norm_num))
  have sh : ∀ {c x : ℤ}, |c| ≤ 2 ^ 64 → |x| ≤ 2 ^ 63 → |i128Rshift62 (c + x)| ≤ 2 ^ 64 := by
    intro c x h1 h2
    unfold i128Rshift62
    rw [abs_le] at *
    omega
  have e0 := step (c := 0) (by norm_num) b0
  have s0 := sh (c := 0) (by norm_num) b0
  have e1 := step s0 b1
  have s1 := sh s0 b1
  have e2 := step s1 b2
  have s2 := sh s1 b2
  have e3 := step s2 b3
  have s3 := sh s2 b3
  have e4 := step s3 b4
  generalize a.v0 * k = t0 at *
  generalize a.v1 * k = t1 at *
  generalize a.v2 * k = t2 at *
  generalize a.v3 * k = t3 at *
  generalize a.v4 * k = t4 at *
  generalize k * a.int = X at *
  clear step sh s0 s1 s2 s3 hint ha hk
  generalize h0 : 0 + t0 = c0 at *
  generalize h1 : i128Rshift62 c0 + t1 = c1 at *
  generalize h2 : i128Rshift62 c1 + t2 = c2 at *
  generalize h3 : i128Rshift62 c2 + t3 = c3 at *
  generalize h4 : i128Rshift62 c3 + t4 = c4 at *
  have key : c0 % 2 ^ 62 + c1 % 2 ^ 62 * 2 ^ 62 + c2 % 2 ^ 62 * 2 ^ 124 + c3 % 2 ^ 62 * 2 ^ 186 +
      c4 * 2 ^ 248 = X := by
    clear e0 e1 e2 e3 e4 b0 b1 b2 b3 b4 hX
    unfold i128Rshift62 at h1 h2 h3 h4
    omega
  have htop : -2 ^ 63 ≤ c4 ∧ c4 < 2 ^ 63 := by
    clear e0 e1 e2 e3 e4 b0 b1 b2 b3 b4 h0 h1 h2 h3 h4 hsum
    rw [abs_le] at hX
    omega
  refine ⟨⟨(i128ToU64 c0 &&& m62 : ℕ), (i128ToU64 c1 &&& m62 : ℕ), (i128ToU64 c2 &&& m62 : ℕ),
    (i128ToU64 c3 &&& m62 : ℕ), c4⟩, ?_, ?_, ?_⟩
  · unfold mul62
    refine bind_step e0 (bind_step e1 (bind_step e2 (bind_step e3 (bind_step e4 ?_))))
    refine bind_step (i128ToI64V_ok htop.1 htop.2) (bind_step (check_true (by simp)) ?_)
    exact bind_step (i128ToI64V_ok htop.1 htop.2) rfl
  · refine ⟨?_, ?_, ?_, ?_⟩ <;> dsimp only <;> rw [toU64_land_m62] <;> omega
  · unfold S62.int
    dsimp only
    rw [toU64_land_m62, toU64_land_m62, toU64_land_m62, toU64_land_m62]
    exact key

/-- The comparison gives the sign of `a - factor b`. -/
theorem mulCmp62_ok {a b : S62} {k : ℤ} (ha : a.Small) (hb : b.Small) (hk : |k| ≤ 2)
    (ia : |a.int| ≤ 2 ^ 300) (ib : |b.int| ≤ 2 ^ 300) :
    ∃ c, mulCmp62 a b k = some c ∧ (c < 0 ↔ a.int < k * b.int) ∧ (c = 0 ↔ a.int = k * b.int) ∧
      (0 < c ↔ k * b.int < a.int) := by
  obtain ⟨x, ex, lx, hx⟩ := mul62_ok ha (k := 1) (by norm_num) ia
  obtain ⟨y, ey, ly, hy⟩ := mul62_ok hb hk ib
  rw [one_mul] at hx
  rw [← hx, ← hy]
  obtain ⟨x0, x1, x2, x3⟩ := lx
  obtain ⟨y0, y1, y2, y3⟩ := ly
  have z : ∀ {v : ℤ}, 0 ≤ v ∧ v < 2 ^ 62 → decide (v / 2 ^ 62 = 0) = true := by
    intro v hv
    rw [decide_eq_true_eq]
    omega
  unfold mulCmp62
  refine ⟨_, bind_step ex (bind_step ey (bind_step (check_true (z x0)) (bind_step (check_true (z y0))
    (bind_step (check_true (z x1)) (bind_step (check_true (z y1)) (bind_step (check_true (z x2))
    (bind_step (check_true (z y2)) (bind_step (check_true (z x3))
    (bind_step (check_true (z y3)) rfl))))))))), ?_⟩
  unfold S62.int
  clear ex ey hx hy z ia ib ha hb hk
  have tri : ∀ {c X Y : ℤ}, (c = -1 ∧ X < Y) ∨ (c = 1 ∧ Y < X) ∨ (c = 0 ∧ X = Y) →
      (c < 0 ↔ X < Y) ∧ (c = 0 ↔ X = Y) ∧ (0 < c ↔ Y < X) := by
    intro c X Y h
    omega
  apply tri
  split_ifs <;> first
    | exact Or.inl ⟨rfl, by linarith⟩
    | exact Or.inr (Or.inl ⟨rfl, by linarith⟩)
    | exact Or.inr (Or.inr ⟨rfl, by linarith⟩)

theorem rangeCheck_ok {a b : S62} {lo hi : ℤ} {strict : Bool} (ha : a.Small) (hb : b.Small)
    (hlo : |lo| ≤ 2) (hhi : |hi| ≤ 2) (ia : |a.int| ≤ 2 ^ 300) (ib : |b.int| ≤ 2 ^ 300)
    (h1 : lo * b.int < a.int) (h2 : a.int ≤ hi * b.int) (h3 : strict = true → a.int < hi * b.int) :
    rangeCheck a b lo hi strict = some () := by
  obtain ⟨c, ec, -, -, c1⟩ := mulCmp62_ok ha hb hlo ia ib
  obtain ⟨d, ed, d1, d2, d3⟩ := mulCmp62_ok ha hb hhi ia ib
  unfold rangeCheck
  refine bind_step ec (bind_step (check_true ?_) (bind_step ed (check_true ?_)))
  · simp only [decide_eq_true_eq, gt_iff_lt]
    exact c1.mpr h1
  · cases strict
    · simp only [Bool.false_eq_true, if_false, decide_eq_true_eq]
      by_contra hc
      have := d3.mp (by omega)
      omega
    · simp only [if_true, decide_eq_true_eq]
      exact d1.mpr (h3 rfl)

/-! ## the division steps -/

theorem mrun_det (κ : ℤ) (j : ℕ) (s : DS) :
    (mrun κ j s).u * (mrun κ j s).r - (mrun κ j s).v * (mrun κ j s).q = 2 ^ j := by
  induction j with
  | zero => simp [mrun]
  | succ j ih =>
    rw [mrun_succ]
    generalize mrun κ j s = m at *
    unfold mstep
    split
    · dsimp only; rw [pow_succ]; linear_combination 2 * ih
    · split
      · dsimp only; rw [pow_succ]; linear_combination 2 * ih
      · dsimp only; rw [pow_succ]; linear_combination 2 * ih

/-- The words of the loop and the words the loop began with. -/
theorem word_check {u v f0 g0 f j : ℕ} {U V F : ℤ} (hj : j ≤ 59) (hu : Cong 64 u (8 * U))
    (hv : Cong 64 v (8 * V)) (hf : Cong (64 - j) f F) (h : 2 ^ j * F = U * f0 + V * g0) :
    u64 (u64 (u * f0) + u64 (v * g0)) = u64 (f <<< (3 + j)) := by
  have l : Cong 64 (u64 (u64 (u * f0) + u64 (v * g0))) (2 ^ (3 + j) * F) := by
    refine (((((hu.mul (Cong.of_eq rfl)).u64 (le_refl _)).add ((hv.mul (Cong.of_eq rfl)).u64
      (le_refl _))).u64 (le_refl _)).congr (x := 8 * U * f0 + 8 * V * g0) ?_)
    rw [pow_add]; linear_combination -8 * h
  have r : Cong 64 (u64 (f <<< (3 + j))) (2 ^ (3 + j) * F) := by
    refine Cong.u64 ?_ (le_refl _)
    rw [Nat.shiftLeft_eq]
    unfold Cong at hf ⊢
    rw [Int.modEq_iff_dvd] at hf ⊢
    obtain ⟨t, ht⟩ := hf
    refine ⟨8 * t, ?_⟩
    push_cast
    have : (18446744073709551616 : ℤ) = 2 ^ j * 2 ^ (64 - j) := by
      rw [show (18446744073709551616 : ℤ) = 2 ^ 64 by norm_num, ← pow_add]; congr 1; omega
    rw [this, pow_add]
    linear_combination 2 ^ 3 * 2 ^ j * ht
  have e : ((u64 (u64 (u * f0) + u64 (v * g0)) : ℕ) : ℤ) ≡ (u64 (f <<< (3 + j)) : ℕ) [ZMOD 2 ^ 64] :=
    Int.ModEq.trans l (Int.ModEq.symm r)
  have l1 := u64_lt (u64 (u * f0) + u64 (v * g0))
  have l2 := u64_lt (f <<< (3 + j))
  unfold Int.ModEq at e
  omega

theorem divsteps59LoopV_ok {z : ℤ} {f0 g0 : ℕ} (hF : f0 % 2 = 1) (hf0 : f0 < 2 ^ 64) (hg0 : g0 < 2 ^ 64)
    (hz : |z| ≤ 591 - 59) (k : ℕ) : ∀ (j : ℕ), j + k = 59 → ∀ {s : DivVars},
    DivRel 8 64 j s (mrun 2 j ⟨z, f0, g0⟩) →
    divsteps59LoopV f0 g0 k (3 + j) s = some (divsteps59Step^[k] s) := by
  have hF' : ((f0 : ℤ)) % 2 = 1 := by omega
  induction k with
  | zero => intro j _ s _; rfl
  | succ k ih =>
    intro j hj s hr
    have hi := mrun_inv 2 (z := z) (G := g0) hF' j
    have hrz := run_z (κ := 2) (Or.inr rfl) j (s := ⟨z, f0, g0⟩)
    have hrz' := run_z (κ := 2) (Or.inr rfl) (j + 1) (s := ⟨z, f0, g0⟩)
    dsimp only at hrz hrz'
    have hnext : DivRel 8 64 (j + 1) (divsteps59Step s) (mrun 2 (j + 1) ⟨z, f0, g0⟩) := by
      rw [mrun_succ]
      refine divsteps59_step_rel (by norm_num) (by omega) hr ?_ hi.odd
      rw [mrun_s]
      omega
    unfold divsteps59LoopV
    refine bind_step (check_true ?_) (bind_step (check_true ?_) (bind_step (check_true ?_)
      (bind_step (check_true ?_) ?_)))
    · have := hr.f.parity (by omega)
      rw [decide_eq_true_eq, Nat.and_one_is_mod]
      have := hi.odd
      omega
    · rw [decide_eq_true_eq]
      exact word_check (by omega) hr.u hr.v hr.f hi.f
    · rw [decide_eq_true_eq]
      exact word_check (by omega) hr.q hr.r hr.g hi.g
    · rw [hnext.z, mrun_s]
      push_cast at hrz'
      rw [abs_le] at hrz'
      simp only [Bool.and_eq_true, decide_eq_true_eq]
      omega
    · rw [show 3 + j + 1 = 3 + (j + 1) by ring, Function.iterate_succ_apply]
      exact ih (j + 1) (by omega) hnext

theorem divsteps59V_ok {z : ℤ} {f0 g0 : ℕ} (hF : f0 % 2 = 1) (hf0 : f0 < 2 ^ 64) (hg0 : g0 < 2 ^ 64)
    (hz : |z| ≤ 591 - 59) : divsteps59V z f0 g0 = some (divsteps59 z f0 g0) := by
  have hF' : ((f0 : ℤ)) % 2 = 1 := by omega
  have hstart : DivRel 8 64 0 ⟨z, f0, g0, 8, 0, 0, 8⟩ (mrun 2 0 ⟨z, f0, g0⟩) :=
    ⟨rfl, Cong.of_eq rfl, Cong.of_eq rfl, Cong.of_eq rfl, Cong.of_eq rfl, Cong.of_eq rfl, Cong.of_eq rfl,
      hf0, hg0, (by decide : 8 < 2 ^ 64), (by decide : 0 < 2 ^ 64), (by decide : 0 < 2 ^ 64),
      (by decide : 8 < 2 ^ 64)⟩
  have hloop := divsteps59LoopV_ok hF hf0 hg0 hz 59 0 (by norm_num) hstart
  have hspec := divsteps59_spec (z := z) (F := f0) (G := g0) hF' (by omega) hf0 hg0 (Cong.of_eq rfl)
    (Cong.of_eq rfl)
  have hdet := mrun_det 2 59 ⟨z, f0, g0⟩
  have hinv := mrun_inv 2 (z := z) (G := g0) hF' 59
  generalize mrun 2 59 ⟨z, f0, g0⟩ = m at *
  obtain ⟨-, -, i3, i4, -⟩ := hinv
  unfold divsteps59 at hspec ⊢
  dsimp only at hspec ⊢
  generalize divsteps59Step^[59] ⟨z, f0, g0, 8, 0, 0, 8⟩ = s at *
  have e2 : s.trans = ⟨8 * m.u, 8 * m.v, 8 * m.q, 8 * m.r⟩ := by
    exact (Prod.mk.inj hspec).2
  have bd : ∀ {a b c d : ℤ}, |a| + |b| ≤ 2 ^ 59 → |c| + |d| ≤ 2 ^ 59 → |8 * a * (8 * d)| ≤ 2 ^ 124 := by
    intro a b c d h1 h2
    have := abs_nonneg b
    have := abs_nonneg c
    have e : 8 * a * (8 * d) = 64 * (a * d) := by ring
    rw [e, abs_mul, abs_mul]
    have : |a| * |d| ≤ 2 ^ 59 * 2 ^ 59 :=
      mul_le_mul (by omega) (by omega) (abs_nonneg _) (by norm_num)
    norm_num at this ⊢
    omega
  have b1 := bd i3 i4
  have b2 := bd (a := m.v) (b := m.u) (c := m.r) (d := m.q) (by rw [add_comm]; exact i3) (by rw [add_comm]; exact i4)
  have hd : 8 * m.u * (8 * m.r) - 8 * m.v * (8 * m.q) = 2 ^ 65 := by linear_combination 64 * hdet
  rw [abs_le] at b1 b2
  unfold divsteps59V
  refine bind_step hloop (bind_step (a := true) ?_ (bind_step (check_true rfl) rfl))
  rw [e2]
  unfold detCheckPow2
  dsimp only
  generalize 8 * m.u * (8 * m.r) = A at *
  generalize 8 * m.v * (8 * m.q) = B at *
  refine bind_step (i128?_some (by omega) (by omega)) (bind_step (i128?_some (by omega) (by omega))
    (bind_step (check_true ?_) (bind_step (i128?_some (by omega) (by omega)) (bind_step (check_true (by decide)) ?_))))
  · split <;> rw [decide_eq_true_eq] <;> omega
  · rw [hd]; simp

/-! ## the updates -/

theorem updateFgRowV_ok {u v x : ℤ} {f g : S62} (huv : |u| + |v| ≤ 2 ^ 62) (hf : f.Small)
    (hg : g.Small) (h : 2 ^ 62 * x = u * f.int + v * g.int) (hx : |x| ≤ 2 ^ 300) :
    ∃ r, updateFgRowV u v f g = some r ∧ updateFgRow u v f g = some r ∧ r.int = x ∧ r.Low := by
  have e0 := mul2_some huv hf.v0 hg.v0
  have b0 := (dot_le huv hf.v0 hg.v0).2.2
  have b1 := (dot_le huv hf.v1 hg.v1).2.2
  have b2 := (dot_le huv hf.v2 hg.v2).2.2
  have b3 := (dot_le huv hf.v3 hg.v3).2.2
  have b4 := (dot_le huv hf.v4 hg.v4).2.2
  have hsum : 2 ^ 62 * x = (u * f.v0 + v * g.v0) + (u * f.v1 + v * g.v1) * 2 ^ 62 +
      (u * f.v2 + v * g.v2) * 2 ^ 124 + (u * f.v3 + v * g.v3) * 2 ^ 186 +
      (u * f.v4 + v * g.v4) * 2 ^ 248 := by
    rw [h]; unfold S62.int; ring
  have sb : ∀ {c : ℤ}, |c| ≤ 2 ^ 126 → |i128Rshift62 c| ≤ 2 ^ 125 := by
    intro c hc
    have := shift_bound (c := c) (by omega)
    omega
  generalize ht0 : u * f.v0 + v * g.v0 = t0 at *
  obtain ⟨c1, e1, h1⟩ : ∃ c1, accum2 (i128Rshift62 t0) u f.v1 v g.v1 = some c1 ∧
      c1 = i128Rshift62 t0 + (u * f.v1 + v * g.v1) :=
    ⟨_, accum2_some huv hf.v1 hg.v1 (sb (by omega)), rfl⟩
  generalize u * f.v1 + v * g.v1 = t1 at *
  have hb1 : |c1| ≤ 2 ^ 126 := by
    have := shift_bound (c := t0) (by omega)
    rw [abs_le] at *; omega
  obtain ⟨c2, e2, h2⟩ : ∃ c2, accum2 (i128Rshift62 c1) u f.v2 v g.v2 = some c2 ∧
      c2 = i128Rshift62 c1 + (u * f.v2 + v * g.v2) :=
    ⟨_, accum2_some huv hf.v2 hg.v2 (sb (by omega)), rfl⟩
  generalize u * f.v2 + v * g.v2 = t2 at *
  have hb2 : |c2| ≤ 2 ^ 126 := by
    have := shift_bound (c := c1) (by omega)
    rw [abs_le] at *; omega
  obtain ⟨c3, e3, h3⟩ : ∃ c3, accum2 (i128Rshift62 c2) u f.v3 v g.v3 = some c3 ∧
      c3 = i128Rshift62 c2 + (u * f.v3 + v * g.v3) :=
    ⟨_, accum2_some huv hf.v3 hg.v3 (sb (by omega)), rfl⟩
  generalize u * f.v3 + v * g.v3 = t3 at *
  have hb3 : |c3| ≤ 2 ^ 126 := by
    have := shift_bound (c := c2) (by omega)
    rw [abs_le] at *; omega
  obtain ⟨c4, e4, h4⟩ : ∃ c4, accum2 (i128Rshift62 c3) u f.v4 v g.v4 = some c4 ∧
      c4 = i128Rshift62 c3 + (u * f.v4 + v * g.v4) :=
    ⟨_, accum2_some huv hf.v4 hg.v4 (sb (by omega)), rfl⟩
  generalize u * f.v4 + v * g.v4 = t4 at *
  have hlow : t0 % 2 ^ 62 = 0 := by
    clear e0 e1 e2 e3 e4 sb b0 b1 b2 b3 b4 hb1 hb2 hb3 h ht0 hx h1 h2 h3 h4
    omega
  have key : (c1 % 2 ^ 62 + c2 % 2 ^ 62 * 2 ^ 62 + c3 % 2 ^ 62 * 2 ^ 124 + c4 % 2 ^ 62 * 2 ^ 186 +
      c4 / 2 ^ 62 * 2 ^ 248) = x := by
    clear e0 e1 e2 e3 e4 sb b0 b1 b2 b3 b4 hb1 hb2 hb3 h ht0 hx
    unfold i128Rshift62 at h1 h2 h3 h4
    omega
  have hrt : -2 ^ 63 ≤ i128Rshift62 c4 ∧ i128Rshift62 c4 < 2 ^ 63 := by
    unfold i128Rshift62
    rw [abs_le] at hx
    clear e0 e1 e2 e3 e4 sb b0 b1 b2 b3 b4 hb1 hb2 hb3 h ht0 h1 h2 h3 h4 hsum hlow
    omega
  have htop : i128ToI64 (i128Rshift62 c4) = c4 / 2 ^ 62 := by
    unfold i128ToI64
    exact toI64_eq hrt.1 hrt.2
  have hz : decide (i128ToU64 t0 &&& m62 = 0) = true := by
    have := toU64_land_m62 t0
    rw [decide_eq_true_eq]
    omega
  refine ⟨⟨(i128ToU64 c1 &&& m62 : ℕ), (i128ToU64 c2 &&& m62 : ℕ), (i128ToU64 c3 &&& m62 : ℕ),
    (i128ToU64 c4 &&& m62 : ℕ), i128ToI64 (i128Rshift62 c4)⟩, ?_, ?_, ?_⟩
  · unfold updateFgRowV
    refine bind_step e0 (bind_step (check_true hz) (bind_step e1 (bind_step e2 (bind_step e3 (bind_step e4
      (bind_step (i128ToI64V_ok hrt.1 hrt.2) ?_))))))
    rw [htop]
    rfl
  · unfold updateFgRow
    rw [← Option.bind_assoc, e0, Option.bind_some]
    simp only [e1, e2, e3, e4, Option.bind_some]
  · unfold S62.int
    constructor
    · dsimp only
      rw [toU64_land_m62, toU64_land_m62, toU64_land_m62, toU64_land_m62, htop]
      exact key
    · refine ⟨?_, ?_, ?_, ?_⟩ <;> dsimp only <;> rw [toU64_land_m62] <;> omega

theorem updateFg62V_ok {t : Trans} {x y : ℤ} {f g : S62} (huv : |t.u| + |t.v| ≤ 2 ^ 62)
    (hqr : |t.q| + |t.r| ≤ 2 ^ 62) (hf : f.Small) (hg : g.Small)
    (h : 2 ^ 62 * x = t.u * f.int + t.v * g.int) (hx : |x| ≤ 2 ^ 300)
    (h' : 2 ^ 62 * y = t.q * f.int + t.r * g.int) (hy : |y| ≤ 2 ^ 300) :
    ∃ f' g', updateFg62V f g t = some (f', g') ∧ updateFg62 f g t = some (f', g') ∧ f'.int = x ∧
      g'.int = y ∧ f'.Low ∧ g'.Low := by
  obtain ⟨f', v1, e1, h1, l1⟩ := updateFgRowV_ok huv hf hg h hx
  obtain ⟨g', v2, e2, h2, l2⟩ := updateFgRowV_ok hqr hf hg h' hy
  refine ⟨f', g', ?_, ?_, h1, h2, l1, l2⟩
  · unfold updateFg62V
    exact bind_step v1 (bind_step v2 rfl)
  · unfold updateFg62
    rw [e1, Option.bind_some, e2, Option.bind_some]

theorem modinvAbs_ok {v : ℤ} (h : |v| ≤ 2 ^ 62) : modinvAbs v = some |v| := by
  unfold modinvAbs
  rw [abs_le] at h
  refine bind_step (check_true (by rw [decide_eq_true_eq]; omega)) ?_
  split
  · rw [abs_of_neg (by assumption)]
  · rw [abs_of_nonneg (by omega)]

/-- One row of the update of `d` and `e`. -/
theorem updateDeRowV_ok {M : Modinfo} {m : ℤ} (hM : M.Ok m) {u v : ℤ} {d e : S62}
    (huv : |u| + |v| ≤ 2 ^ 62) (hd : d.Low) (he : e.Low)
    (hd1 : -2 * m < d.int) (hd2 : d.int < m) (he1 : -2 * m < e.int) (he2 : e.int < m) :
    ∃ r, updateDeRowV u v d e M = some r ∧ updateDeRow u v d e M = some r ∧ r.Low ∧ -2 * m < r.int ∧
      r.int < m ∧ 2 ^ 62 * r.int ≡ u * d.int + v * e.int [ZMOD m] ∧ (d.int = 0 → v = 0 → r.int = 0) := by
  have hm1 := hM.ge
  have hm2 := hM.le
  have hds : d.Small := hd.small (by rw [abs_le]; constructor <;> omega)
  have hes : e.Small := he.small (by rw [abs_le]; constructor <;> omega)
  -- signs
  obtain ⟨md0, emd, hmd⟩ : ∃ md0, i64? (and64 u (d.v4 / 2 ^ 63) + and64 v (e.v4 / 2 ^ 63)) = some md0 ∧
      md0 = (if d.int < 0 then u else 0) + (if e.int < 0 then v else 0) := by
    have hu : |u| ≤ 2 ^ 62 := by have := abs_nonneg v; omega
    have hv : |v| ≤ 2 ^ 62 := by have := abs_nonneg u; omega
    have hd4 := hds.v4
    have he4 := hes.v4
    rw [abs_le] at hd4 he4 hu hv
    have hsg : ∀ (a : S62) (w : ℤ), a.Low → (-2 ^ 62 ≤ a.v4 ∧ a.v4 ≤ 2 ^ 62) →
        (-2 ^ 62 ≤ w ∧ w ≤ 2 ^ 62) → and64 w (a.v4 / 2 ^ 63) = if a.int < 0 then w else 0 := by
      intro a w ha h4 hw
      by_cases hc : a.int < 0
      · rw [if_pos hc, sign_neg (by omega) (ha.sign.mpr hc), and64_neg_one (by omega) (by omega)]
      · have : ¬ a.v4 < 0 := fun h => hc (ha.sign.mp h)
        rw [if_neg hc, sign_nonneg (by omega) (by omega), and64_zero]
    have hb : |(if d.int < 0 then u else 0) + (if e.int < 0 then v else 0)| ≤ 2 ^ 62 := by
      refine (abs_add_le _ _).trans (le_trans (add_le_add ?_ ?_) huv)
      · split <;> simp
      · split <;> simp
    rw [hsg d u hd hd4 hu, hsg e v he he4 hv]
    generalize ((if d.int < 0 then u else 0) + (if e.int < 0 then v else 0)) = z at hb
    rw [abs_le] at hb
    exact ⟨_, i64?_some (by omega) (by omega), rfl⟩
  have hmdb : |md0| ≤ 2 ^ 62 := by
    rw [hmd]
    refine (abs_add_le _ _).trans (le_trans (add_le_add ?_ ?_) huv)
    · split <;> simp
    · split <;> simp
  have e0 := mul2_some huv hds.v0 hes.v0
  obtain ⟨k, hk0, hk1, hkz, hkc, hke⟩ := de_addend hM (c := u * d.v0 + v * e.v0) hmdb
  have hmdle : |md0 - k| ≤ 2 ^ 63 := by
    clear hke hkc hkz
    rw [abs_le] at hmdb ⊢
    omega
  -- the exact value
  set X := u * d.int + v * e.int + m * (md0 - k) with hX
  have hsum : X = (u * d.v0 + v * e.v0 + M.modulus.v0 * (md0 - k)) +
      (u * d.v1 + v * e.v1 + M.modulus.v1 * (md0 - k)) * 2 ^ 62 +
      (u * d.v2 + v * e.v2 + M.modulus.v2 * (md0 - k)) * 2 ^ 124 +
      (u * d.v3 + v * e.v3 + M.modulus.v3 * (md0 - k)) * 2 ^ 186 +
      (u * d.v4 + v * e.v4 + M.modulus.v4 * (md0 - k)) * 2 ^ 248 := by
    rw [hX, ← hM.val]; unfold S62.int; ring
  have hlow : (u * d.v0 + v * e.v0 + M.modulus.v0 * (md0 - k)) % 2 ^ 62 = 0 := by
    have e1 : u * d.v0 + v * e.v0 + m * (md0 - k) =
        (u * d.v0 + v * e.v0 + M.modulus.v0 * (md0 - k)) + 2 ^ 62 * ((M.modulus.v1 +
          M.modulus.v2 * 2 ^ 62 + M.modulus.v3 * 2 ^ 124 + M.modulus.v4 * 2 ^ 186) * (md0 - k)) := by
      rw [← hM.val]; unfold S62.int; ring
    rw [e1, Int.add_mul_emod_self_left] at hkz
    exact hkz
  -- range of the exact value
  have hrange : -2 * m * 2 ^ 62 < X ∧ X < m * 2 ^ 62 := by
    have hX' : X = u * (d.int + if d.int < 0 then m else 0) +
        v * (e.int + if e.int < 0 then m else 0) - m * k := by
      rw [hX, hmd]; split <;> split <;> ring
    have hD : |d.int + if d.int < 0 then m else 0| ≤ m - 1 := by
      rw [abs_le]; split <;> constructor <;> omega
    have hE : |e.int + if e.int < 0 then m else 0| ≤ m - 1 := by
      rw [abs_le]; split <;> constructor <;> omega
    generalize (d.int + if d.int < 0 then m else 0) = D at *
    generalize (e.int + if e.int < 0 then m else 0) = E at *
    have h1 : |u * D + v * E| ≤ 2 ^ 62 * (m - 1) := by
      refine (abs_add_le _ _).trans ?_
      rw [abs_mul, abs_mul]
      have a1 := mul_le_mul_of_nonneg_left hD (abs_nonneg u)
      have a2 := mul_le_mul_of_nonneg_left hE (abs_nonneg v)
      have a3 : (|u| + |v|) * (m - 1) ≤ 2 ^ 62 * (m - 1) :=
        mul_le_mul_of_nonneg_right huv (by omega)
      linarith
    rw [abs_le] at h1
    have hk2 : m * k ≤ m * (2 ^ 62 - 1) := mul_le_mul_of_nonneg_left (by omega) (by omega)
    have hk3 : 0 ≤ m * k := mul_nonneg (by omega) hk0
    rw [hX']
    constructor <;> nlinarith
  have hz0 : d.int = 0 → v = 0 → X = 0 := by
    intro hd0 hv0
    have hm0 : md0 = 0 := by rw [hmd, hd0, hv0]; simp
    have hdv : d.v0 = 0 := by
      obtain ⟨⟨x0, x1⟩, ⟨y0, y1⟩, ⟨z0, z1⟩, ⟨w0, w1⟩⟩ := hd
      unfold S62.int at hd0
      omega
    have hk : k = 0 := hkc (by rw [hdv, hv0]; ring) hm0
    rw [hX, hd0, hv0, hm0, hk]; ring
  have hmodX : X ≡ u * d.int + v * e.int [ZMOD m] := by
    rw [hX, Int.modEq_iff_dvd]
    exact ⟨-(md0 - k), by ring⟩
  clear_value X
  obtain ⟨c0, a1, c1, a2, c2, a3, c3, a4, c4, e0', f1, e1, f2, e2, f3, e3, f4, e4, key⟩ :=
    deRow_chain huv hds hes hM.l0 hM.l1 hM.l2 hM.l3 hM.l4 hmdle hsum hlow
  have hrt : -2 ^ 63 ≤ i128Rshift62 c4 ∧ i128Rshift62 c4 < 2 ^ 63 := by
    unfold i128Rshift62
    omega
  have htop : i128ToI64 (i128Rshift62 c4) = c4 / 2 ^ 62 := by
    unfold i128ToI64
    exact toI64_eq hrt.1 hrt.2
  have hz : decide (i128ToU64 c0 &&& m62 = 0) = true := by
    have hc0 : c0 = u * d.v0 + v * e.v0 + M.modulus.v0 * (md0 - k) := by
      rw [accumMul_some ((mod_le hM.l0 hmdle).trans (by norm_num))
        ((dot_le huv hds.v0 hes.v0).2.2.trans (by norm_num))] at e0'
      exact (Option.some.inj e0').symm
    have := toU64_land_m62 c0
    rw [← hc0] at hlow
    rw [decide_eq_true_eq]
    omega
  have hu : |u| ≤ 2 ^ 62 := by have := abs_nonneg v; omega
  have hv : |v| ≤ 2 ^ 62 := by have := abs_nonneg u; omega
  have hint : S62.int ⟨(i128ToU64 c1 &&& m62 : ℕ), (i128ToU64 c2 &&& m62 : ℕ),
      (i128ToU64 c3 &&& m62 : ℕ), (i128ToU64 c4 &&& m62 : ℕ), i128ToI64 (i128Rshift62 c4)⟩ * 2 ^ 62 =
      X := by
    unfold S62.int
    dsimp only
    rw [toU64_land_m62, toU64_land_m62, toU64_land_m62, toU64_land_m62, htop, ← key]
    ring
  refine ⟨⟨(i128ToU64 c1 &&& m62 : ℕ), (i128ToU64 c2 &&& m62 : ℕ), (i128ToU64 c3 &&& m62 : ℕ),
    (i128ToU64 c4 &&& m62 : ℕ), i128ToI64 (i128Rshift62 c4)⟩, ?_, ?_, ?_, ?_, ?_, ?_, ?_⟩
  · unfold updateDeRowV
    refine bind_step (modinvAbs_ok hu) (bind_step (modinvAbs_ok hv) (bind_step (check_true (by
      rw [decide_eq_true_eq]; omega)) ?_))
    refine bind_step emd (bind_step e0 ?_)
    dsimp only
    rw [hke]
    refine bind_step e0' (bind_step (check_true hz) (bind_step f1 (bind_step e1 (bind_step f2 (bind_step e2
      (bind_step f3 (bind_step e3 (bind_step f4 (bind_step e4
      (bind_step (i128ToI64V_ok hrt.1 hrt.2) ?_))))))))))
    rw [htop]
    rfl
  · unfold updateDeRow
    simp only [emd, Option.bind_some]
    rw [← Option.bind_assoc, e0, Option.bind_some, hke]
    simp only [e0', e1, e2, e3, e4, f1, f2, f3, f4, Option.bind_some]
  · refine ⟨?_, ?_, ?_, ?_⟩ <;> dsimp only <;> rw [toU64_land_m62] <;> omega
  · omega
  · omega
  · rw [mul_comm, hint]; exact hmodX
  · intro hd0 hv0
    have := hz0 hd0 hv0
    omega


theorem updateDe62V_ok {M : Modinfo} {m : ℤ} (hM : M.Ok m) {t : Trans} {d e : S62}
    (huv : |t.u| + |t.v| ≤ 2 ^ 62) (hqr : |t.q| + |t.r| ≤ 2 ^ 62) (hd : d.Low) (he : e.Low)
    (hd1 : -2 * m < d.int) (hd2 : d.int < m) (he1 : -2 * m < e.int) (he2 : e.int < m) :
    ∃ d' e', updateDe62V d e t M = some (d', e') ∧ updateDe62 d e t M = some (d', e') ∧ d'.Low ∧ e'.Low ∧
      -2 * m < d'.int ∧ d'.int < m ∧ -2 * m < e'.int ∧ e'.int < m ∧
      2 ^ 62 * d'.int ≡ t.u * d.int + t.v * e.int [ZMOD m] ∧
      2 ^ 62 * e'.int ≡ t.q * d.int + t.r * e.int [ZMOD m] ∧ (d.int = 0 → t.v = 0 → d'.int = 0) := by
  have hm1 := hM.ge
  have hm2 := hM.le
  obtain ⟨d', v1, h1, l1, a1, b1, m1, z1⟩ := updateDeRowV_ok hM huv hd he hd1 hd2 he1 he2
  obtain ⟨e', v2, h2, l2, a2, b2, m2, -⟩ := updateDeRowV_ok hM hqr hd he hd1 hd2 he1 he2
  have rc : ∀ {x : S62}, x.Low → -2 * m < x.int → x.int < m → rangeCheck x M.modulus (-2) 1 true = some () := by
    intro x lx x1 x2
    have ix : |x.int| ≤ 2 ^ 300 := by rw [abs_le]; constructor <;> omega
    exact rangeCheck_ok (lx.small ix) hM.small (by norm_num) (by norm_num) ix
      (by rw [hM.val, abs_le]; constructor <;> omega) (by rw [hM.val]; exact x1)
      (by rw [hM.val]; omega) (fun _ => by rw [hM.val]; omega)
  refine ⟨d', e', ?_, ?_, l1, l2, a1, b1, a2, b2, m1, m2, z1⟩
  · unfold updateDe62V
    exact bind_step (rc hd hd1 hd2) (bind_step (rc he he1 he2) (bind_step v1 (bind_step v2
      (bind_step (rc l1 a1 b1) (bind_step (rc l2 a2 b2) rfl)))))
  · unfold updateDe62
    rw [h1, Option.bind_some, h2, Option.bind_some]

/-! ## normalization -/

theorem normalize62V_ok {M : Modinfo} {m : ℤ} (hM : M.Ok m) {r : S62} {sign : ℤ} (hr : r.Low)
    (h1 : -2 * m < r.int) (h2 : r.int < m) (hs1 : -2 ^ 63 ≤ sign) (hs2 : sign < 2 ^ 63) :
    normalize62V r sign M = normalize62 r sign M := by
  have hm1 := hM.ge
  have hm2 := hM.le
  obtain ⟨s, es, cs, s0, s1, -, -⟩ := normalize62_spec hM hr h1 h2 hs1 hs2
  have ir : |r.int| ≤ 2 ^ 300 := by rw [abs_le]; constructor <;> omega
  have is : |s.int| ≤ 2 ^ 300 := by rw [abs_le]; constructor <;> omega
  have im : |M.modulus.int| ≤ 2 ^ 300 := by rw [hM.val, abs_le]; constructor <;> omega
  obtain ⟨c, ec, c1, -, -⟩ := mulCmp62_ok cs.small hM.small (k := 0) (by norm_num) is im
  obtain ⟨d, ed, d1, -, -⟩ := mulCmp62_ok cs.small hM.small (k := 1) (by norm_num) is im
  have lc : ∀ {x : ℤ}, 0 ≤ x ∧ x < 2 ^ 62 → limbCheck x = some () := by
    intro x hx
    unfold limbCheck
    exact bind_step (check_true (by rw [decide_eq_true_eq]; omega))
      (check_true (by rw [decide_eq_true_eq]; omega))
  have l4 : limbCheck r.v4 = some () := by
    have h4 : -(2 ^ 62 - 1) ≤ r.v4 ∧ r.v4 ≤ 2 ^ 62 - 1 := by
      obtain ⟨r0, r1, r2, r3⟩ := hr
      unfold S62.int at h1 h2
      omega
    unfold limbCheck
    exact bind_step (check_true (by rw [decide_eq_true_eq]; omega))
      (check_true (by rw [decide_eq_true_eq]; omega))
  have z : ∀ {v : ℤ}, 0 ≤ v ∧ v < 2 ^ 62 → decide (v / 2 ^ 62 = 0) = true := by
    intro v hv
    rw [decide_eq_true_eq]
    omega
  obtain ⟨q0, q1, q2, q3, q4⟩ := cs
  rw [es]
  unfold normalize62V
  refine bind_step (lc hr.v0) (bind_step (lc hr.v1) (bind_step (lc hr.v2) (bind_step (lc hr.v3)
    (bind_step l4 (bind_step (a := ()) ?_ (bind_step es (bind_step (check_true (z q0))
    (bind_step (check_true (z q1)) (bind_step (check_true (z q2)) (bind_step (check_true (z q3))
    (bind_step (check_true (z ?_)) (bind_step ec (bind_step (check_true ?_) (bind_step ed
    (bind_step (check_true ?_) rfl)))))))))))))))
  · exact rangeCheck_ok (hr.small ir) hM.small (by norm_num) (by norm_num) ir im (by rw [hM.val]; exact h1)
      (by rw [hM.val]; omega) (fun _ => by rw [hM.val]; omega)
  · omega
  · rw [decide_eq_true_eq]
    by_contra hc
    have := c1.mp (by omega)
    rw [zero_mul] at this
    omega
  · rw [decide_eq_true_eq]
    exact d1.mpr (by rw [hM.val]; omega)

end Secp.Model.Verify
