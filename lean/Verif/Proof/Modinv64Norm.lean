import Verif.Proof.Modinv64Update

/-!
The final normalization of the inversion.
-/

namespace Secp.Model

theorem normLimb_spec {r m : ℤ} (a b : Prop) [Decidable a] [Decidable b] (h1 : |r| ≤ 2 ^ 62)
    (h2 : |m| < 2 ^ 62) {ca cb : ℤ} (ha : ca = if a then -1 else 0) (hb : cb = if b then -1 else 0) :
    normLimb r m ca cb = some ((r + if a then m else 0) * if b then -1 else 1) := by
  rw [abs_le] at h1
  rw [abs_lt] at h2
  have e1 : and64 m ca = if a then m else 0 := by
    rw [ha]
    split
    · exact and64_neg_one (by omega) (by omega)
    · exact and64_zero m
  have e2 : -(2 ^ 63 - 1) ≤ r + (if a then m else 0) ∧ r + (if a then m else 0) ≤ 2 ^ 63 - 1 := by
    split <;> omega
  unfold normLimb
  rw [e1]
  generalize (r + if a then m else 0) = s at *
  rw [i64?_some (by omega) (by omega), Option.bind_some, hb]
  split
  · rw [xor64_neg_one (by omega) (by omega), i64?_some (by omega) (by omega),
      show -s - 1 - -1 = s * -1 by ring]
  · rw [xor64_zero (by omega) (by omega), i64?_some (by omega) (by omega),
      show s - 0 = s * 1 by ring]

theorem normCarry_spec {r : S62} (h0 : |r.v0| ≤ 2 ^ 63 - 2) (h1 : |r.v1| ≤ 2 ^ 63 - 2)
    (h2 : |r.v2| ≤ 2 ^ 63 - 2) (h3 : |r.v3| ≤ 2 ^ 63 - 2) (h4 : |r.v4| ≤ 2 ^ 62) :
    ∃ s, normCarry r = some s ∧ s.int = r.int ∧ s.Low := by
  rw [abs_le] at *
  obtain ⟨c1, hc1⟩ : ∃ c, c = r.v1 + r.v0 / 2 ^ 62 := ⟨_, rfl⟩
  obtain ⟨c2, hc2⟩ : ∃ c, c = r.v2 + c1 / 2 ^ 62 := ⟨_, rfl⟩
  obtain ⟨c3, hc3⟩ : ∃ c, c = r.v3 + c2 / 2 ^ 62 := ⟨_, rfl⟩
  obtain ⟨c4, hc4⟩ : ∃ c, c = r.v4 + c3 / 2 ^ 62 := ⟨_, rfl⟩
  refine ⟨⟨and64 r.v0 m62, and64 c1 m62, and64 c2 m62, and64 c3 m62, c4⟩, ?_, ?_, ?_⟩
  · unfold normCarry
    rw [← hc1, i64?_some (by omega) (by omega), Option.bind_some, ← hc2,
      i64?_some (by omega) (by omega), Option.bind_some, ← hc3,
      i64?_some (by omega) (by omega), Option.bind_some, ← hc4,
      i64?_some (by omega) (by omega), Option.bind_some]
  · unfold S62.int
    dsimp only
    rw [and64_m62, and64_m62, and64_m62, and64_m62]
    omega
  · refine ⟨?_, ?_, ?_, ?_⟩ <;> dsimp only <;> rw [and64_m62] <;> omega

theorem S62.small_top {a : S62} (h0 : |a.v0| < 2 ^ 62) (h1 : |a.v1| < 2 ^ 62) (h2 : |a.v2| < 2 ^ 62)
    (h3 : |a.v3| < 2 ^ 62) (h : |a.int| ≤ 2 ^ 257) : |a.v4| ≤ 2 ^ 10 := by
  unfold S62.int at h
  rw [abs_le] at *
  rw [abs_lt] at *
  omega

theorem sign_eq {x : ℤ} (h1 : -2 ^ 63 ≤ x) (h2 : x < 2 ^ 63) :
    x / 2 ^ 63 = if x < 0 then -1 else 0 := by
  split <;> omega

/-- What normalization computes. -/
theorem normalize62_spec {M : Modinfo} {m : ℤ} (hM : M.Ok m) {r : S62} {sign : ℤ} (hr : r.Low)
    (h1 : -2 * m < r.int) (h2 : r.int < m) (hs1 : -2 ^ 63 ≤ sign) (hs2 : sign < 2 ^ 63) :
    ∃ s, normalize62 r sign M = some s ∧ s.Canon ∧ 0 ≤ s.int ∧ s.int < m ∧
      s.int ≡ (if sign < 0 then -1 else 1) * r.int [ZMOD m] ∧ (r.int = 0 → s.int = 0) := by
  have hm1 := hM.ge
  have hm2 := hM.le
  have hrs : r.Small := hr.small (by rw [abs_le]; constructor <;> omega)
  have hb : ∀ {x y : ℤ}, (0 ≤ x ∧ x < 2 ^ 62) → |y| < 2 ^ 62 → ∀ (a b : Prop) [Decidable a] [Decidable b],
      |(x + if a then y else 0) * if b then -1 else 1| ≤ 2 ^ 63 - 2 := by
    intro x y hx hy a b _ _
    rw [abs_lt] at hy
    rw [abs_le]
    split <;> split <;> constructor <;> omega
  have hr4 : |r.v4| ≤ 2 ^ 10 := by
    obtain ⟨h0, h1', h2', h3⟩ := hr
    unfold S62.int at h1 h2
    rw [abs_le]
    omega
  have hM4 : |M.modulus.v4| ≤ 2 ^ 10 := S62.small_top hM.l0 hM.l1 hM.l2 hM.l3 (by
    rw [hM.val, abs_le]; constructor <;> omega)
  have hca : r.v4 / 2 ^ 63 = if r.int < 0 then -1 else 0 := by
    rw [abs_le] at hr4
    rw [sign_eq (by omega) (by omega)]
    exact if_congr hr.sign rfl rfl
  have hcb := sign_eq hs1 hs2
  have t0 := normLimb_spec (r.int < 0) (sign < 0) hrs.v0 hM.l0 hca hcb
  have t1 := normLimb_spec (r.int < 0) (sign < 0) hrs.v1 hM.l1 hca hcb
  have t2 := normLimb_spec (r.int < 0) (sign < 0) hrs.v2 hM.l2 hca hcb
  have t3 := normLimb_spec (r.int < 0) (sign < 0) hrs.v3 hM.l3 hca hcb
  have t4 := normLimb_spec (r.int < 0) (sign < 0) hrs.v4 hM.l4 hca hcb
  have b0 := hb hr.v0 hM.l0 (r.int < 0) (sign < 0)
  have b1 := hb hr.v1 hM.l1 (r.int < 0) (sign < 0)
  have b2 := hb hr.v2 hM.l2 (r.int < 0) (sign < 0)
  have b3 := hb hr.v3 hM.l3 (r.int < 0) (sign < 0)
  have b4 : |(r.v4 + if r.int < 0 then M.modulus.v4 else 0) * if sign < 0 then -1 else 1| ≤ 2 ^ 62 := by
    rw [abs_le] at *
    split <;> split <;> omega
  obtain ⟨x, ex, hx, lx⟩ := normCarry_spec (r := ⟨_, _, _, _, _⟩) b0 b1 b2 b3 b4
  have hxv : x.int = (r.int + if r.int < 0 then m else 0) * if sign < 0 then -1 else 1 := by
    rw [hx]
    by_cases c1 : r.int < 0
    · simp only [if_pos c1]
      conv_rhs => rw [← hM.val]
      unfold S62.int
      dsimp only
      ring
    · simp only [if_neg c1]
      unfold S62.int
      dsimp only
      ring
  have hx1 : -m < x.int := by rw [hxv]; split <;> split <;> omega
  have hx2 : x.int < m := by rw [hxv]; split <;> split <;> omega
  have hxc : x.int ≡ (if sign < 0 then -1 else 1) * r.int [ZMOD m] := by
    rw [hxv, Int.modEq_iff_dvd]
    refine ⟨-(if r.int < 0 then 1 else 0) * (if sign < 0 then -1 else 1), ?_⟩
    split <;> split <;> ring
  have hxz : r.int = 0 → x.int = 0 := by
    intro h
    rw [hxv, h]
    simp
  have hxs : x.Small := lx.small (by rw [abs_le]; constructor <;> omega)
  have hx4 : |x.v4| ≤ 2 ^ 10 := by
    obtain ⟨h0, h1', h2', h3⟩ := lx
    unfold S62.int at hx1 hx2
    clear * - h0 h1' h2' h3 hx1 hx2 hm2
    rw [abs_le]
    omega
  have hcc : x.v4 / 2 ^ 63 = if x.int < 0 then -1 else 0 := by
    rw [abs_le] at hx4
    rw [sign_eq (by omega) (by omega)]
    exact if_congr lx.sign rfl rfl
  have hadd : ∀ {a y : ℤ}, |a| ≤ 2 ^ 62 → |y| < 2 ^ 62 →
      i64? (a + and64 y (x.v4 / 2 ^ 63)) = some (a + if x.int < 0 then y else 0) := by
    intro a y ha hy
    rw [abs_le] at ha
    rw [abs_lt] at hy
    have e1 : and64 y (x.v4 / 2 ^ 63) = if x.int < 0 then y else 0 := by
      rw [hcc]
      split
      · exact and64_neg_one (by omega) (by omega)
      · exact and64_zero y
    rw [e1]
    refine i64?_some ?_ ?_ <;> split <;> omega
  have hb' : ∀ {a y : ℤ}, (0 ≤ a ∧ a < 2 ^ 62) → |y| < 2 ^ 62 →
      |a + if x.int < 0 then y else 0| ≤ 2 ^ 63 - 2 := by
    intro a y ha hy
    rw [abs_lt] at hy
    rw [abs_le]
    split <;> omega
  have c4 : |x.v4 + if x.int < 0 then M.modulus.v4 else 0| ≤ 2 ^ 62 := by
    clear * - hx4 hM4
    rw [abs_le] at *
    split <;> omega
  obtain ⟨y, ey, hy, ly⟩ := normCarry_spec (r := ⟨_, _, _, _, _⟩) (hb' lx.v0 hM.l0) (hb' lx.v1 hM.l1)
    (hb' lx.v2 hM.l2) (hb' lx.v3 hM.l3) c4
  have hyv : y.int = x.int + if x.int < 0 then m else 0 := by
    rw [hy]
    by_cases c1 : x.int < 0
    · simp only [if_pos c1]
      rw [← hM.val]
      unfold S62.int
      dsimp only
      ring
    · simp only [if_neg c1]
      unfold S62.int
      dsimp only
      ring
  have hy0 : 0 ≤ y.int := by rw [hyv]; split <;> omega
  have hy1 : y.int < m := by rw [hyv]; split <;> omega
  refine ⟨y, ?_, ⟨ly.v0, ly.v1, ly.v2, ly.v3, ?_⟩, hy0, hy1, ?_, ?_⟩
  · unfold normalize62
    simp only [t0, t1, t2, t3, t4, Option.bind_some, ex, hadd hxs.v0 hM.l0, hadd hxs.v1 hM.l1,
      hadd hxs.v2 hM.l2, hadd hxs.v3 hM.l3, hadd hxs.v4 hM.l4, ey]
  · obtain ⟨h0, h1', h2', h3⟩ := ly
    unfold S62.int at hy0 hy1
    clear * - h0 h1' h2' h3 hy0 hy1 hm2
    omega
  · refine Int.ModEq.trans ?_ hxc
    rw [hyv, Int.modEq_iff_dvd]
    refine ⟨-(if x.int < 0 then 1 else 0), ?_⟩
    split <;> ring
  · intro h
    rw [hyv, hxz h]
    simp

end Secp.Model
