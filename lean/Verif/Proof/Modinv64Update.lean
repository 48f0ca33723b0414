import Verif.Spec.Signed62
import Verif.Proof.Modinv64Divsteps

/-!
The updates of `d, e` and `f, g` by a transition matrix, on limbs.
-/

namespace Secp.Model

/-- All limbs at most `2^62` in absolute value. -/
structure S62.Small (a : S62) : Prop where
  v0 : |a.v0| ≤ 2 ^ 62
  v1 : |a.v1| ≤ 2 ^ 62
  v2 : |a.v2| ≤ 2 ^ 62
  v3 : |a.v3| ≤ 2 ^ 62
  v4 : |a.v4| ≤ 2 ^ 62

/-- All limbs but the top one in `[0, 2^62)`. -/
structure S62.Low (a : S62) : Prop where
  v0 : 0 ≤ a.v0 ∧ a.v0 < 2 ^ 62
  v1 : 0 ≤ a.v1 ∧ a.v1 < 2 ^ 62
  v2 : 0 ≤ a.v2 ∧ a.v2 < 2 ^ 62
  v3 : 0 ≤ a.v3 ∧ a.v3 < 2 ^ 62

theorem S62.Low.small {a : S62} (h : a.Low) (hx : |a.int| ≤ 2 ^ 300) : a.Small := by
  obtain ⟨h0, h1, h2, h3⟩ := h
  unfold S62.int at hx
  rw [abs_le] at hx
  refine ⟨?_, ?_, ?_, ?_, ?_⟩ <;> rw [abs_le] <;> omega

theorem S62.Low.sign {a : S62} (h : a.Low) : a.v4 < 0 ↔ a.int < 0 := by
  obtain ⟨h0, h1, h2, h3⟩ := h
  unfold S62.int
  omega

theorem dot_le {u v x y : ℤ} (huv : |u| + |v| ≤ 2 ^ 62) (hx : |x| ≤ 2 ^ 62) (hy : |y| ≤ 2 ^ 62) :
    |u * x| ≤ 2 ^ 124 ∧ |v * y| ≤ 2 ^ 124 ∧ |u * x + v * y| ≤ 2 ^ 124 := by
  have hu : |u| * |x| ≤ |u| * 2 ^ 62 := mul_le_mul_of_nonneg_left hx (abs_nonneg _)
  have hv : |v| * |y| ≤ |v| * 2 ^ 62 := mul_le_mul_of_nonneg_left hy (abs_nonneg _)
  have h3 := abs_add_le (u * x) (v * y)
  rw [abs_mul u x, abs_mul v y] at h3
  rw [abs_mul u x, abs_mul v y]
  have := abs_nonneg u
  have := abs_nonneg v
  have h4 : (|u| + |v|) * 2 ^ 62 ≤ 2 ^ 62 * 2 ^ 62 := mul_le_mul_of_nonneg_right huv (by norm_num)
  refine ⟨by nlinarith, by nlinarith, by nlinarith⟩

theorem accumMul_some {c a b : ℤ} (h1 : |a * b| ≤ 2 ^ 126) (h2 : |c| ≤ 2 ^ 126 - 1) :
    i128AccumMul c a b = some (c + a * b) := by
  rw [abs_le] at h1 h2
  unfold i128AccumMul
  rw [i128?_some (by omega) (by omega), Option.bind_some, i128?_some (by omega) (by omega)]

theorem accum2_some {c u v x y : ℤ} (huv : |u| + |v| ≤ 2 ^ 62) (hx : |x| ≤ 2 ^ 62)
    (hy : |y| ≤ 2 ^ 62) (hc : |c| ≤ 2 ^ 125) : accum2 c u x v y = some (c + (u * x + v * y)) := by
  obtain ⟨h1, h2, h3⟩ := dot_le huv hx hy
  unfold accum2
  rw [accumMul_some (by omega) (by omega), Option.bind_some, accumMul_some (by omega) (by
    rw [abs_le] at *; omega), add_assoc]

theorem mul2_some {u v x y : ℤ} (huv : |u| + |v| ≤ 2 ^ 62) (hx : |x| ≤ 2 ^ 62)
    (hy : |y| ≤ 2 ^ 62) : (i128Mul u x).bind (fun c => i128AccumMul c v y) = some (u * x + v * y) := by
  obtain ⟨h1, h2, h3⟩ := dot_le huv hx hy
  rw [abs_le] at h1
  unfold i128Mul
  rw [i128?_some (by omega) (by omega), Option.bind_some, accumMul_some (by omega) (by
    rw [abs_le] at *; omega)]

theorem shift_bound {c : ℤ} (h : |c| ≤ 2 ^ 127) : |i128Rshift62 c| ≤ 2 ^ 65 := by
  unfold i128Rshift62
  rw [abs_le] at *
  omega

/-- One row of the update of `f` and `g`. -/
theorem updateFgRow_spec {u v x : ℤ} {f g : S62} (huv : |u| + |v| ≤ 2 ^ 62) (hf : f.Small)
    (hg : g.Small) (h : 2 ^ 62 * x = u * f.int + v * g.int) (hx : |x| ≤ 2 ^ 300) :
    ∃ r, updateFgRow u v f g = some r ∧ r.int = x ∧ r.Low := by
  have e0 := mul2_some huv hf.v0 hg.v0
  have b0 := (dot_le huv hf.v0 hg.v0).2.2
  have b1 := (dot_le huv hf.v1 hg.v1).2.2
  have b2 := (dot_le huv hf.v2 hg.v2).2.2
  have b3 := (dot_le huv hf.v3 hg.v3).2.2
  have b4 := (dot_le huv hf.v4 hg.v4).2.2
  have hsum : 2 ^ 62 * x = (u * f.v0 + v * g.v0) + (u * f.v1 + v * g.v1) * 2 ^ 62 +
      (u * f.v2 + v * g.v2) * 2 ^ 124 + (u * f.v3 + v * g.v3) * 2 ^ 186 +
      (u * f.v4 + v * g.v4) * 2 ^ 248 := by
    rw [h]; unfold S62.int; ring
  have sb : ∀ {c : ℤ}, |c| ≤ 2 ^ 126 → |i128Rshift62 c| ≤ 2 ^ 125 := by
    intro c hc
    have := shift_bound (c := c) (by omega)
    omega
  generalize ht0 : u * f.v0 + v * g.v0 = t0 at *
  obtain ⟨c1, e1, h1⟩ : ∃ c1, accum2 (i128Rshift62 t0) u f.v1 v g.v1 = some c1 ∧
      c1 = i128Rshift62 t0 + (u * f.v1 + v * g.v1) :=
    ⟨_, accum2_some huv hf.v1 hg.v1 (sb (by omega)), rfl⟩
  generalize u * f.v1 + v * g.v1 = t1 at *
  have hb1 : |c1| ≤ 2 ^ 126 := by
    have := shift_bound (c := t0) (by omega)
    rw [abs_le] at *; omega
  obtain ⟨c2, e2, h2⟩ : ∃ c2, accum2 (i128Rshift62 c1) u f.v2 v g.v2 = some c2 ∧
      c2 = i128Rshift62 c1 + (u * f.v2 + v * g.v2) :=
    ⟨_, accum2_some huv hf.v2 hg.v2 (sb (by omega)), rfl⟩
  generalize u * f.v2 + v * g.v2 = t2 at *
  have hb2 : |c2| ≤ 2 ^ 126 := by
    have := shift_bound (c := c1) (by omega)
    rw [abs_le] at *; omega
  obtain ⟨c3, e3, h3⟩ : ∃ c3, accum2 (i128Rshift62 c2) u f.v3 v g.v3 = some c3 ∧
      c3 = i128Rshift62 c2 + (u * f.v3 + v * g.v3) :=
    ⟨_, accum2_some huv hf.v3 hg.v3 (sb (by omega)), rfl⟩
  generalize u * f.v3 + v * g.v3 = t3 at *
  have hb3 : |c3| ≤ 2 ^ 126 := by
    have := shift_bound (c := c2) (by omega)
    rw [abs_le] at *; omega
  obtain ⟨c4, e4, h4⟩ : ∃ c4, accum2 (i128Rshift62 c3) u f.v4 v g.v4 = some c4 ∧
      c4 = i128Rshift62 c3 + (u * f.v4 + v * g.v4) :=
    ⟨_, accum2_some huv hf.v4 hg.v4 (sb (by omega)), rfl⟩
  generalize u * f.v4 + v * g.v4 = t4 at *
  refine ⟨⟨(i128ToU64 c1 &&& m62 : ℕ), (i128ToU64 c2 &&& m62 : ℕ), (i128ToU64 c3 &&& m62 : ℕ),
    (i128ToU64 c4 &&& m62 : ℕ), i128ToI64 (i128Rshift62 c4)⟩, ?_, ?_⟩
  · unfold updateFgRow
    rw [← Option.bind_assoc, e0, Option.bind_some]
    simp only [e1, e2, e3, e4, Option.bind_some]
  · have key : (c1 % 2 ^ 62 + c2 % 2 ^ 62 * 2 ^ 62 + c3 % 2 ^ 62 * 2 ^ 124 + c4 % 2 ^ 62 * 2 ^ 186 +
        c4 / 2 ^ 62 * 2 ^ 248) = x := by
      clear e0 e1 e2 e3 e4 sb b0 b1 b2 b3 b4 hb1 hb2 hb3 h ht0 hx
      unfold i128Rshift62 at h1 h2 h3 h4
      omega
    have htop : i128ToI64 (i128Rshift62 c4) = c4 / 2 ^ 62 := by
      unfold i128ToI64 i128Rshift62
      rw [abs_le] at hx
      refine toI64_eq ?_ ?_ <;> omega
    unfold S62.int
    constructor
    · dsimp only
      rw [toU64_land_m62, toU64_land_m62, toU64_land_m62, toU64_land_m62, htop]
      exact key
    · refine ⟨?_, ?_, ?_, ?_⟩ <;> dsimp only <;> rw [toU64_land_m62] <;> omega

theorem updateFg62_spec {t : Trans} {x y : ℤ} {f g : S62} (huv : |t.u| + |t.v| ≤ 2 ^ 62)
    (hqr : |t.q| + |t.r| ≤ 2 ^ 62) (hf : f.Small) (hg : g.Small)
    (h : 2 ^ 62 * x = t.u * f.int + t.v * g.int) (hx : |x| ≤ 2 ^ 300)
    (h' : 2 ^ 62 * y = t.q * f.int + t.r * g.int) (hy : |y| ≤ 2 ^ 300) :
    ∃ f' g', updateFg62 f g t = some (f', g') ∧ f'.int = x ∧ g'.int = y ∧ f'.Low ∧ g'.Low := by
  obtain ⟨f', e1, h1, l1⟩ := updateFgRow_spec huv hf hg h hx
  obtain ⟨g', e2, h2, l2⟩ := updateFgRow_spec hqr hf hg h' hy
  refine ⟨f', g', ?_, h1, h2, l1, l2⟩
  unfold updateFg62
  rw [e1, Option.bind_some, e2, Option.bind_some]

theorem mod_le {m md : ℤ} (h1 : |m| < 2 ^ 62) (h2 : |md| ≤ 2 ^ 63) : |m * md| ≤ 2 ^ 125 := by
  rw [abs_mul]
  calc |m| * |md| ≤ 2 ^ 62 * 2 ^ 63 := mul_le_mul h1.le h2 (abs_nonneg _) (by norm_num)
    _ = 2 ^ 125 := by norm_num

theorem accumMod_some {c m md : ℤ} (h1 : |m| < 2 ^ 62) (h2 : |md| ≤ 2 ^ 63) (hc : |c| ≤ 2 ^ 126 - 1) :
    accumMod c m md = some (c + m * md) := by
  unfold accumMod
  by_cases hm : m = 0
  · rw [if_neg (by simpa using hm), hm]; simp
  · rw [if_pos hm]
    exact accumMul_some ((mod_le h1 h2).trans (by norm_num)) hc

/-- The addend that makes the low bits vanish. -/
theorem de_addend {M : Modinfo} {m : ℤ} (hM : M.Ok m) {md0 c : ℤ} (h : |md0| ≤ 2 ^ 62) :
    ∃ k : ℤ, 0 ≤ k ∧ k < 2 ^ 62 ∧ (c + m * (md0 - k)) % 2 ^ 62 = 0 ∧
    (c = 0 → md0 = 0 → k = 0) ∧
    toI64 (u64 (toU64 md0 + (2 ^ 64 - (u64 (u64 (M.inv62 * i128ToU64 c) + toU64 md0) &&& m62))) : ℕ) =
      md0 - k := by
  obtain ⟨w, hw⟩ : ∃ w, w = u64 (u64 (M.inv62 * i128ToU64 c) + toU64 md0) &&& m62 := ⟨_, rfl⟩
  rw [← hw]
  have hwl : w < 2 ^ 62 := by rw [hw, land_m62]; omega
  have hcong : Cong 62 w (M.inv62 * c + md0) := by
    rw [hw, land_m62]
    have h1 : Cong 62 (u64 (u64 (M.inv62 * i128ToU64 c) + toU64 md0)) (M.inv62 * c + md0) :=
      (((Cong.mul (Cong.of_eq rfl) (cong_toU64 c (by norm_num))).u64 (by norm_num)).add
        (cong_toU64 md0 (by norm_num))).u64 (by norm_num)
    refine Int.ModEq.trans ?_ h1
    push_cast
    exact Int.mod_modEq _ _
  refine ⟨w, by omega, by omega, ?_, ?_, ?_⟩
  · have h2 : c + m * (md0 - w) ≡ 0 [ZMOD 2 ^ 62] := by
      have hi : (M.inv62 : ℤ) * m ≡ 1 [ZMOD 2 ^ 62] := by
        unfold Int.ModEq; rw [hM.inv]; norm_num
      have h3 : c + m * (md0 - w) ≡ c + m * (md0 - (M.inv62 * c + md0)) [ZMOD 2 ^ 62] :=
        Int.ModEq.add_left _ (Int.ModEq.mul_left _ (Int.ModEq.sub_left _ hcong))
      refine h3.trans ?_
      have e : c + m * (md0 - (M.inv62 * c + md0)) = c - (M.inv62 * m) * c := by ring
      rw [e]
      have := Int.ModEq.sub_left c (Int.ModEq.mul_right c hi)
      simpa using this
    simpa [Int.ModEq] using h2
  · rintro rfl rfl
    rw [hw]
    simp [i128ToU64, toU64_zero, u64]
  · have := toU64_cast md0
    have := toU64_lt md0
    rw [abs_le] at h
    unfold u64 toI64
    omega

/-- The accumulators of one row. -/
theorem deRow_chain {u v md X : ℤ} {d e M : S62} (huv : |u| + |v| ≤ 2 ^ 62) (hds : d.Small)
    (hes : e.Small) (l0 : |M.v0| < 2 ^ 62) (l1 : |M.v1| < 2 ^ 62) (l2 : |M.v2| < 2 ^ 62)
    (l3 : |M.v3| < 2 ^ 62) (l4 : |M.v4| < 2 ^ 62) (hmd : |md| ≤ 2 ^ 63)
    (hsum : X = (u * d.v0 + v * e.v0 + M.v0 * md) + (u * d.v1 + v * e.v1 + M.v1 * md) * 2 ^ 62 +
      (u * d.v2 + v * e.v2 + M.v2 * md) * 2 ^ 124 + (u * d.v3 + v * e.v3 + M.v3 * md) * 2 ^ 186 +
      (u * d.v4 + v * e.v4 + M.v4 * md) * 2 ^ 248)
    (hlow : (u * d.v0 + v * e.v0 + M.v0 * md) % 2 ^ 62 = 0) :
    ∃ c0 a1 c1 a2 c2 a3 c3 a4 c4, i128AccumMul (u * d.v0 + v * e.v0) M.v0 md = some c0 ∧
      accum2 (i128Rshift62 c0) u d.v1 v e.v1 = some a1 ∧ accumMod a1 M.v1 md = some c1 ∧
      accum2 (i128Rshift62 c1) u d.v2 v e.v2 = some a2 ∧ accumMod a2 M.v2 md = some c2 ∧
      accum2 (i128Rshift62 c2) u d.v3 v e.v3 = some a3 ∧ accumMod a3 M.v3 md = some c3 ∧
      accum2 (i128Rshift62 c3) u d.v4 v e.v4 = some a4 ∧ i128AccumMul a4 M.v4 md = some c4 ∧
      2 ^ 62 * (c1 % 2 ^ 62 + c2 % 2 ^ 62 * 2 ^ 62 + c3 % 2 ^ 62 * 2 ^ 124 +
        c4 % 2 ^ 62 * 2 ^ 186 + c4 / 2 ^ 62 * 2 ^ 248) = X := by
  have b0 := (dot_le huv hds.v0 hes.v0).2.2
  have b1 := (dot_le huv hds.v1 hes.v1).2.2
  have b2 := (dot_le huv hds.v2 hes.v2).2.2
  have b3 := (dot_le huv hds.v3 hes.v3).2.2
  have b4 := (dot_le huv hds.v4 hes.v4).2.2
  have q0 := mod_le l0 hmd
  have q1 := mod_le l1 hmd
  have q2 := mod_le l2 hmd
  have q3 := mod_le l3 hmd
  have q4 := mod_le l4 hmd
  have tri : ∀ {a b c : ℤ}, |a| ≤ 2 ^ 65 → |b| ≤ 2 ^ 124 → c = a + b → |c| ≤ 2 ^ 126 - 1 - 2 ^ 125 := by
    intro a b c h1 h2 h3
    rw [abs_le] at *; omega
  have tri' : ∀ {a b c : ℤ}, |a| ≤ 2 ^ 126 - 1 - 2 ^ 125 → |b| ≤ 2 ^ 125 → c = a + b →
      |i128Rshift62 c| ≤ 2 ^ 65 := by
    intro a b c h1 h2 h3
    apply shift_bound
    rw [abs_le] at *; omega
  obtain ⟨c0, e0, h0⟩ : ∃ c0, i128AccumMul (u * d.v0 + v * e.v0) M.v0 md = some c0 ∧
      c0 = (u * d.v0 + v * e.v0) + M.v0 * md := ⟨_, accumMul_some (by omega) (by omega), rfl⟩
  have s0 := tri' (b0.trans (by norm_num)) q0 h0
  obtain ⟨a1, f1, g1⟩ : ∃ a1, accum2 (i128Rshift62 c0) u d.v1 v e.v1 = some a1 ∧
      a1 = i128Rshift62 c0 + (u * d.v1 + v * e.v1) :=
    ⟨_, accum2_some huv hds.v1 hes.v1 (by omega), rfl⟩
  have r1 := tri s0 b1 g1
  obtain ⟨c1, e1, h1⟩ : ∃ c1, accumMod a1 M.v1 md = some c1 ∧ c1 = a1 + M.v1 * md :=
    ⟨_, accumMod_some l1 hmd (by omega), rfl⟩
  have s1 := tri' r1 q1 h1
  obtain ⟨a2, f2, g2⟩ : ∃ a2, accum2 (i128Rshift62 c1) u d.v2 v e.v2 = some a2 ∧
      a2 = i128Rshift62 c1 + (u * d.v2 + v * e.v2) :=
    ⟨_, accum2_some huv hds.v2 hes.v2 (by omega), rfl⟩
  have r2 := tri s1 b2 g2
  obtain ⟨c2, e2, h2⟩ : ∃ c2, accumMod a2 M.v2 md = some c2 ∧ c2 = a2 + M.v2 * md :=
    ⟨_, accumMod_some l2 hmd (by omega), rfl⟩
  have s2 := tri' r2 q2 h2
  obtain ⟨a3, f3, g3⟩ : ∃ a3, accum2 (i128Rshift62 c2) u d.v3 v e.v3 = some a3 ∧
      a3 = i128Rshift62 c2 + (u * d.v3 + v * e.v3) :=
    ⟨_, accum2_some huv hds.v3 hes.v3 (by omega), rfl⟩
  have r3 := tri s2 b3 g3
  obtain ⟨c3, e3, h3⟩ : ∃ c3, accumMod a3 M.v3 md = some c3 ∧ c3 = a3 + M.v3 * md :=
    ⟨_, accumMod_some l3 hmd (by omega), rfl⟩
  have s3 := tri' r3 q3 h3
  obtain ⟨a4, f4, g4⟩ : ∃ a4, accum2 (i128Rshift62 c3) u d.v4 v e.v4 = some a4 ∧
      a4 = i128Rshift62 c3 + (u * d.v4 + v * e.v4) :=
    ⟨_, accum2_some huv hds.v4 hes.v4 (by omega), rfl⟩
  have r4 := tri s3 b4 g4
  obtain ⟨c4, e4, h4⟩ : ∃ c4, i128AccumMul a4 M.v4 md = some c4 ∧ c4 = a4 + M.v4 * md :=
    ⟨_, accumMul_some (by omega) (by omega), rfl⟩
  refine ⟨c0, a1, c1, a2, c2, a3, c3, a4, c4, e0, f1, e1, f2, e2, f3, e3, f4, e4, ?_⟩
  clear e0 e1 e2 e3 e4 f1 f2 f3 f4 tri tri' b0 b1 b2 b3 b4 q0 q1 q2 q3 q4 s0 s1 s2 s3 r1 r2 r3 r4
  rw [g1] at h1
  rw [g2] at h2
  rw [g3] at h3
  rw [g4] at h4
  clear g1 g2 g3 g4
  rw [add_assoc] at h1 h2 h3 h4
  generalize u * d.v0 + v * e.v0 + M.v0 * md = t0 at *
  generalize u * d.v1 + v * e.v1 + M.v1 * md = t1 at *
  generalize u * d.v2 + v * e.v2 + M.v2 * md = t2 at *
  generalize u * d.v3 + v * e.v3 + M.v3 * md = t3 at *
  generalize u * d.v4 + v * e.v4 + M.v4 * md = t4 at *
  unfold i128Rshift62 at h1 h2 h3 h4
  omega

/-- One row of the update of `d` and `e`. -/
theorem updateDeRow_spec {M : Modinfo} {m : ℤ} (hM : M.Ok m) {u v : ℤ} {d e : S62}
    (huv : |u| + |v| ≤ 2 ^ 62) (hd : d.Low) (he : e.Low)
    (hd1 : -2 * m < d.int) (hd2 : d.int < m) (he1 : -2 * m < e.int) (he2 : e.int < m) :
    ∃ r, updateDeRow u v d e M = some r ∧ r.Low ∧ -2 * m < r.int ∧ r.int < m ∧
      2 ^ 62 * r.int ≡ u * d.int + v * e.int [ZMOD m] ∧ (d.int = 0 → v = 0 → r.int = 0) := by
  have hm1 := hM.ge
  have hm2 := hM.le
  have hds : d.Small := hd.small (by rw [abs_le]; constructor <;> omega)
  have hes : e.Small := he.small (by rw [abs_le]; constructor <;> omega)
  -- signs
  obtain ⟨md0, emd, hmd⟩ : ∃ md0, i64? (and64 u (d.v4 / 2 ^ 63) + and64 v (e.v4 / 2 ^ 63)) = some md0 ∧
      md0 = (if d.int < 0 then u else 0) + (if e.int < 0 then v else 0) := by
    have hu : |u| ≤ 2 ^ 62 := by have := abs_nonneg v; omega
    have hv : |v| ≤ 2 ^ 62 := by have := abs_nonneg u; omega
    have hd4 := hds.v4
    have he4 := hes.v4
    rw [abs_le] at hd4 he4 hu hv
    have hsg : ∀ (a : S62) (w : ℤ), a.Low → (-2 ^ 62 ≤ a.v4 ∧ a.v4 ≤ 2 ^ 62) →
        (-2 ^ 62 ≤ w ∧ w ≤ 2 ^ 62) → and64 w (a.v4 / 2 ^ 63) = if a.int < 0 then w else 0 := by
      intro a w ha h4 hw
      by_cases hc : a.int < 0
      · rw [if_pos hc, sign_neg (by omega) (ha.sign.mpr hc), and64_neg_one (by omega) (by omega)]
      · have : ¬ a.v4 < 0 := fun h => hc (ha.sign.mp h)
        rw [if_neg hc, sign_nonneg (by omega) (by omega), and64_zero]
    have hb : |(if d.int < 0 then u else 0) + (if e.int < 0 then v else 0)| ≤ 2 ^ 62 := by
      refine (abs_add_le _ _).trans (le_trans (add_le_add ?_ ?_) huv)
      · split <;> simp
      · split <;> simp
    rw [hsg d u hd hd4 hu, hsg e v he he4 hv]
    generalize ((if d.int < 0 then u else 0) + (if e.int < 0 then v else 0)) = z at hb
    rw [abs_le] at hb
    exact ⟨_, i64?_some (by omega) (by omega), rfl⟩
  have hmdb : |md0| ≤ 2 ^ 62 := by
    rw [hmd]
    refine (abs_add_le _ _).trans (le_trans (add_le_add ?_ ?_) huv)
    · split <;> simp
    · split <;> simp
  have e0 := mul2_some huv hds.v0 hes.v0
  obtain ⟨k, hk0, hk1, hkz, hkc, hke⟩ := de_addend hM (c := u * d.v0 + v * e.v0) hmdb
  have hmdle : |md0 - k| ≤ 2 ^ 63 := by
    clear hke hkc hkz
    rw [abs_le] at hmdb ⊢
    omega
  -- the exact value
  set X := u * d.int + v * e.int + m * (md0 - k) with hX
  have hsum : X = (u * d.v0 + v * e.v0 + M.modulus.v0 * (md0 - k)) +
      (u * d.v1 + v * e.v1 + M.modulus.v1 * (md0 - k)) * 2 ^ 62 +
      (u * d.v2 + v * e.v2 + M.modulus.v2 * (md0 - k)) * 2 ^ 124 +
      (u * d.v3 + v * e.v3 + M.modulus.v3 * (md0 - k)) * 2 ^ 186 +
      (u * d.v4 + v * e.v4 + M.modulus.v4 * (md0 - k)) * 2 ^ 248 := by
    rw [hX, ← hM.val]; unfold S62.int; ring
  have hlow : (u * d.v0 + v * e.v0 + M.modulus.v0 * (md0 - k)) % 2 ^ 62 = 0 := by
    have e1 : u * d.v0 + v * e.v0 + m * (md0 - k) =
        (u * d.v0 + v * e.v0 + M.modulus.v0 * (md0 - k)) + 2 ^ 62 * ((M.modulus.v1 +
          M.modulus.v2 * 2 ^ 62 + M.modulus.v3 * 2 ^ 124 + M.modulus.v4 * 2 ^ 186) * (md0 - k)) := by
      rw [← hM.val]; unfold S62.int; ring
    rw [e1, Int.add_mul_emod_self_left] at hkz
    exact hkz
  -- range of the exact value
  have hrange : -2 * m * 2 ^ 62 < X ∧ X < m * 2 ^ 62 := by
    have hX' : X = u * (d.int + if d.int < 0 then m else 0) +
        v * (e.int + if e.int < 0 then m else 0) - m * k := by
      rw [hX, hmd]; split <;> split <;> ring
    have hD : |d.int + if d.int < 0 then m else 0| ≤ m - 1 := by
      rw [abs_le]; split <;> constructor <;> omega
    have hE : |e.int + if e.int < 0 then m else 0| ≤ m - 1 := by
      rw [abs_le]; split <;> constructor <;> omega
    generalize (d.int + if d.int < 0 then m else 0) = D at *
    generalize (e.int + if e.int < 0 then m else 0) = E at *
    have h1 : |u * D + v * E| ≤ 2 ^ 62 * (m - 1) := by
      refine (abs_add_le _ _).trans ?_
      rw [abs_mul, abs_mul]
      have a1 := mul_le_mul_of_nonneg_left hD (abs_nonneg u)
      have a2 := mul_le_mul_of_nonneg_left hE (abs_nonneg v)
      have a3 : (|u| + |v|) * (m - 1) ≤ 2 ^ 62 * (m - 1) :=
        mul_le_mul_of_nonneg_right huv (by omega)
      linarith
    rw [abs_le] at h1
    have hk2 : m * k ≤ m * (2 ^ 62 - 1) := mul_le_mul_of_nonneg_left (by omega) (by omega)
    have hk3 : 0 ≤ m * k := mul_nonneg (by omega) hk0
    rw [hX']
    constructor <;> nlinarith
  have hz0 : d.int = 0 → v = 0 → X = 0 := by
    intro hd0 hv0
    have hm0 : md0 = 0 := by rw [hmd, hd0, hv0]; simp
    have hdv : d.v0 = 0 := by
      obtain ⟨⟨x0, x1⟩, ⟨y0, y1⟩, ⟨z0, z1⟩, ⟨w0, w1⟩⟩ := hd
      unfold S62.int at hd0
      omega
    have hk : k = 0 := hkc (by rw [hdv, hv0]; ring) hm0
    rw [hX, hd0, hv0, hm0, hk]; ring
  have hmodX : X ≡ u * d.int + v * e.int [ZMOD m] := by
    rw [hX, Int.modEq_iff_dvd]
    exact ⟨-(md0 - k), by ring⟩
  clear_value X
  obtain ⟨c0, a1, c1, a2, c2, a3, c3, a4, c4, e0', f1, e1, f2, e2, f3, e3, f4, e4, key⟩ :=
    deRow_chain huv hds hes hM.l0 hM.l1 hM.l2 hM.l3 hM.l4 hmdle hsum hlow
  have htop : i128ToI64 (i128Rshift62 c4) = c4 / 2 ^ 62 := by
    unfold i128ToI64 i128Rshift62
    refine toI64_eq ?_ ?_ <;> omega
  have hint : S62.int ⟨(i128ToU64 c1 &&& m62 : ℕ), (i128ToU64 c2 &&& m62 : ℕ),
      (i128ToU64 c3 &&& m62 : ℕ), (i128ToU64 c4 &&& m62 : ℕ), i128ToI64 (i128Rshift62 c4)⟩ * 2 ^ 62 =
      X := by
    unfold S62.int
    dsimp only
    rw [toU64_land_m62, toU64_land_m62, toU64_land_m62, toU64_land_m62, htop, ← key]
    ring
  refine ⟨⟨(i128ToU64 c1 &&& m62 : ℕ), (i128ToU64 c2 &&& m62 : ℕ), (i128ToU64 c3 &&& m62 : ℕ),
    (i128ToU64 c4 &&& m62 : ℕ), i128ToI64 (i128Rshift62 c4)⟩, ?_, ?_, ?_, ?_, ?_, ?_⟩
  · unfold updateDeRow
    simp only [emd, Option.bind_some]
    rw [← Option.bind_assoc, e0, Option.bind_some, hke]
    simp only [e0', e1, e2, e3, e4, f1, f2, f3, f4, Option.bind_some]
  · refine ⟨?_, ?_, ?_, ?_⟩ <;> dsimp only <;> rw [toU64_land_m62] <;> omega
  · omega
  · omega
  · rw [mul_comm, hint]; exact hmodX
  · intro hd0 hv0
    have := hz0 hd0 hv0
    omega

theorem updateDe62_spec {M : Modinfo} {m : ℤ} (hM : M.Ok m) {t : Trans} {d e : S62}
    (huv : |t.u| + |t.v| ≤ 2 ^ 62) (hqr : |t.q| + |t.r| ≤ 2 ^ 62) (hd : d.Low) (he : e.Low)
    (hd1 : -2 * m < d.int) (hd2 : d.int < m) (he1 : -2 * m < e.int) (he2 : e.int < m) :
    ∃ d' e', updateDe62 d e t M = some (d', e') ∧ d'.Low ∧ e'.Low ∧
      -2 * m < d'.int ∧ d'.int < m ∧ -2 * m < e'.int ∧ e'.int < m ∧
      2 ^ 62 * d'.int ≡ t.u * d.int + t.v * e.int [ZMOD m] ∧
      2 ^ 62 * e'.int ≡ t.q * d.int + t.r * e.int [ZMOD m] ∧ (d.int = 0 → t.v = 0 → d'.int = 0) := by
  obtain ⟨d', h1, l1, a1, b1, m1, z1⟩ := updateDeRow_spec hM huv hd he hd1 hd2 he1 he2
  obtain ⟨e', h2, l2, a2, b2, m2, -⟩ := updateDeRow_spec hM hqr hd he hd1 hd2 he1 he2
  refine ⟨d', e', ?_, l1, l2, a1, b1, a2, b2, m1, m2, z1⟩
  unfold updateDe62
  rw [h1, Option.bind_some, h2, Option.bind_some]

end Secp.Model
