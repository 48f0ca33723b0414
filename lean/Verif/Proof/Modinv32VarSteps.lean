import Verif.Proof.Modinv32Divsteps

/-!
`secp256k1_modinv32_divsteps_30_var` computes the matrix of 30 division steps.
-/

namespace Secp.Model.M32
open Secp.Divstep

/-- The number of zeros found. -/
theorem zeros_spec {g i : ℕ} (hi : i ≤ 30) :
    ∃ k, ctz32 (g ||| u32 ((2 ^ 32 - 1) <<< i)) = k ∧ k ≤ i ∧ 2 ^ k ∣ g ∧
      (k < i → g / 2 ^ k % 2 = 1) ∧ ∀ L ≤ i, 2 ^ L ∣ g → L ≤ k := by
  have hmask : u32 ((2 ^ 32 - 1) <<< i) = 2 ^ i * (2 ^ (32 - i) - 1) := by
    unfold u32
    interval_cases i <;> decide
  rw [hmask]
  obtain ⟨y, hy⟩ : ∃ y, y = g ||| 2 ^ i * (2 ^ (32 - i) - 1) := ⟨_, rfl⟩
  rw [← hy]
  have hmod : y % 2 ^ i = g % 2 ^ i := by
    rw [hy, Nat.or_mod_two_pow, Nat.mul_mod_right, Nat.or_zero]
  have hbit : y / 2 ^ i % 2 = 1 := by
    rw [hy, ← Nat.shiftRight_eq_div_pow, Nat.shiftRight_or_distrib]
    have : (2 ^ i * (2 ^ (32 - i) - 1)) >>> i = 2 ^ (32 - i) - 1 := by
      rw [Nat.shiftRight_eq_div_pow, Nat.mul_div_cancel_left _ (by positivity)]
    rw [this, ← Nat.and_one_is_mod, Nat.and_or_distrib_right]
    have h1 : (2 ^ (32 - i) - 1) &&& 1 = 1 := by
      rw [Nat.and_one_is_mod]
      obtain ⟨c, hc⟩ : ∃ c, 32 - i = c + 1 := ⟨31 - i, by omega⟩
      rw [hc, pow_succ]
      have : 0 < 2 ^ c := by positivity
      omega
    rw [h1, Nat.and_one_is_mod]
    rcases Nat.mod_two_eq_zero_or_one (g >>> i) with h | h <;> rw [h] <;> decide
  obtain ⟨c1, c2⟩ := ctzUpTo_spec 32 y i (by omega) hbit
  have hdvd : ∀ L ≤ i, (2 ^ L ∣ y ↔ 2 ^ L ∣ g) := by
    intro L hL
    have hp : 2 ^ L ∣ 2 ^ i := pow_dvd_pow 2 hL
    have e : y % 2 ^ L = g % 2 ^ L := by
      rw [← Nat.mod_mod_of_dvd y hp, hmod, Nat.mod_mod_of_dvd g hp]
    rw [Nat.dvd_iff_mod_eq_zero, Nat.dvd_iff_mod_eq_zero, e]
  have hlt : ∀ a b : ℕ, a < b → 2 ^ b ∣ y → y / 2 ^ a % 2 = 0 := by
    intro a b hab ⟨t, ht⟩
    obtain ⟨c, rfl⟩ : ∃ c, b = a + (c + 1) := ⟨b - a - 1, by omega⟩
    rw [ht, pow_add, mul_assoc, Nat.mul_div_cancel_left _ (by positivity), pow_succ,
      mul_comm _ 2, mul_assoc]
    omega
  have hle : ctz32 y ≤ i := by
    by_contra hc
    have := hlt i (ctz32 y) (by omega) c1
    omega
  refine ⟨ctz32 y, rfl, hle, (hdvd _ hle).mp c1, ?_, ?_⟩
  · intro hk
    -- the bit lies below `i`
    have e : y / 2 ^ ctz32 y % 2 = g / 2 ^ ctz32 y % 2 := by
      obtain ⟨c, hc⟩ : ∃ c, i = ctz32 y + (c + 1) := ⟨i - ctz32 y - 1, by omega⟩
      have h2 : ∀ a : ℕ, a / 2 ^ ctz32 y % 2 = a % 2 ^ i / 2 ^ ctz32 y % 2 := by
        intro a
        rw [hc, pow_add, Nat.mod_mul_right_div_self, Nat.mod_mod_of_dvd]
        exact ⟨2 ^ c, by rw [pow_succ]; ring⟩
      rw [h2, hmod, ← h2]
    rw [← e]; exact c2
  · intro L hL hLg
    by_contra hc
    have := hlt (ctz32 y) L (by omega) ((hdvd L hL).mpr hLg)
    unfold ctz32 at this
    omega

theorem mask_value (l : ℕ) (hl : 1 ≤ l) (hl2 : l ≤ 32) :
    ((2 ^ 32 - 1) >>> (32 - l)) &&& 255 = 2 ^ min l 8 - 1 := by
  interval_cases l <;> decide

theorem limitMask_spec {eta : ℤ} {i : ℕ} (h0 : 0 ≤ eta) (h1 : eta ≤ 2 ^ 30) (hi : 1 ≤ i)
    (hi2 : i ≤ 30) :
    ∃ L : ℕ, 1 ≤ L ∧ L ≤ i ∧ (L : ℤ) ≤ eta + 1 ∧ L ≤ 8 ∧ limitMask eta i = some (2 ^ L - 1) := by
  obtain ⟨l, hl⟩ : ∃ l : ℕ, (l : ℤ) = if eta + 1 > i then (i : ℤ) else eta + 1 := by
    split
    · exact ⟨i, rfl⟩
    · exact ⟨(eta + 1).toNat, by omega⟩
  have l1 : 1 ≤ l := by split at hl <;> omega
  have l2 : l ≤ i := by split at hl <;> omega
  have l3 : (l : ℤ) ≤ eta + 1 := by split at hl <;> omega
  refine ⟨min l 8, by omega, by omega, by omega, by omega, ?_⟩
  unfold limitMask
  rw [i32?_some (by omega) (by omega), Option.bind_some]
  dsimp only
  rw [← hl, if_pos (by omega), show (32 - (l : ℤ)).toNat = 32 - l by omega,
    mask_value l l1 (by omega)]

/-- The table holds the negated inverses of the odd numbers modulo 256. -/
theorem inv256_spec (f : ℕ) (hf : f % 2 = 1) :
    ∃ t, inv256[(f >>> 1) &&& 127]? = some t ∧ (t * f + 1) % 256 = 0 := by
  have hk : (f >>> 1) &&& 127 = f / 2 % 128 := by
    rw [show (127 : ℕ) = 2 ^ 7 - 1 from rfl, Nat.and_two_pow_sub_one_eq_mod, Nat.shiftRight_eq_div_pow]
  have tab : ∀ k < 128, ∃ t, inv256[k]? = some t ∧ (t * (2 * k + 1) + 1) % 256 = 0 := by
    intro k hk
    have hlen : inv256.length = 128 := by decide +kernel
    refine ⟨inv256[k], List.getElem?_eq_getElem _, ?_⟩
    revert k
    decide +kernel
  obtain ⟨t, e, h⟩ := tab (f / 2 % 128) (Nat.mod_lt _ (by norm_num))
  refine ⟨t, by rw [hk]; exact e, ?_⟩
  have hm : f % 256 = 2 * (f / 2 % 128) + 1 := by omega
  rw [← hm] at h
  rw [Nat.add_mod, Nat.mul_mod, ← Nat.mod_mod f 256, ← Nat.mul_mod, ← Nat.add_mod]
  exact h

theorem cancel8_spec {f g L : ℕ} (hf : f % 2 = 1) (hL : L ≤ 8) :
    ∃ w, cancel8 f g (2 ^ L - 1) = some w ∧ w < 2 ^ L ∧ 2 ^ L ∣ g + w * f := by
  obtain ⟨t, e, h⟩ := inv256_spec f hf
  obtain ⟨w, hw⟩ : ∃ w, w = u32 (g * t) % 2 ^ L := ⟨_, rfl⟩
  have hlt : w < 2 ^ L := by rw [hw]; exact Nat.mod_lt _ (by positivity)
  have hL2 : 2 ^ L ≤ 2 ^ 8 := Nat.pow_le_pow_right (by norm_num) hL
  refine ⟨w, ?_, hlt, ?_⟩
  · unfold cancel8
    rw [e, Option.bind_some, and_low, ← hw, Nat.mod_eq_of_lt (by omega)]
  have hc : Cong L w ((g : ℤ) * t) := by
    have h3 := (Cong.of_eq (k := L) (a := g * t) (x := (g : ℤ) * t) (by push_cast; ring)).u32 (by omega)
    rw [hw]
    refine Int.ModEq.trans ?_ h3
    push_cast
    exact Int.mod_modEq _ _
  have h4 : ((g + w * f : ℕ) : ℤ) ≡ g + (g : ℤ) * t * f [ZMOD 2 ^ L] :=
    Cong.add (Cong.of_eq rfl) (Cong.mul hc (Cong.of_eq rfl))
  have h5 : (2 : ℤ) ^ L ∣ g + (g : ℤ) * t * f := by
    have e : (g : ℤ) + (g : ℤ) * t * f = g * ((t : ℤ) * f + 1) := by ring
    rw [e]
    have h256 : (256 : ℤ) ∣ (t : ℤ) * f + 1 := by
      have : ((t * f + 1 : ℕ) : ℤ) % 256 = 0 := by omega
      push_cast at this
      exact Int.dvd_of_emod_eq_zero this
    have h8 : (2 : ℤ) ^ L ∣ 256 := by
      have := pow_dvd_pow (2 : ℤ) hL
      norm_num at this ⊢
      exact this
    exact Dvd.dvd.mul_left (h8.trans h256) _
  have := Int.modEq_zero_iff_dvd.mp (h4.trans (Int.modEq_zero_iff_dvd.mpr h5))
  exact_mod_cast this

/-- Words in range. -/
structure Words (s : DivVars) : Prop where
  fl : s.f < 2 ^ 32
  gl : s.g < 2 ^ 32
  ul : s.u < 2 ^ 32
  vl : s.v < 2 ^ 32
  ql : s.q < 2 ^ 32
  rl : s.r < 2 ^ 32

/-- The C variables agree with integers: `f`, `g` in the lowest `i` bits, the matrix in 32. -/
structure VRel (i : ℕ) (s : DivVars) (a : MS) : Prop where
  w : Words s
  z : s.z = a.s.z
  f : Cong i s.f a.s.f
  g : Cong i s.g a.s.g
  u : Cong 32 s.u a.u
  v : Cong 32 s.v a.v
  q : Cong 32 s.q a.q
  r : Cong 32 s.r a.r

theorem shl_cong {a k : ℕ} {x : ℤ} (h : Cong 32 a x) : Cong 32 (u32 (a <<< k)) (2 ^ k * x) := by
  refine Cong.u32 ?_ (le_refl _)
  rw [Nat.shiftLeft_eq]
  exact (h.mul (Cong.of_eq (a := 2 ^ k) (x := 2 ^ k) (by push_cast; rfl))).congr (by ring)

/-- The shift at the head of the loop, from a state whose last `L` steps are pending. -/
theorem shiftZeros_spec {i L : ℕ} (hi : i ≤ 30) (hL : L ≤ i) {s : DivVars} {z f g' u v q r : ℤ}
    (hz : |z| ≤ 2 ^ 30) (h : VRel i s ⟨⟨z, f, 2 ^ L * g'⟩, u, v, q, r⟩) :
    ∃ (t : DivVars) (k : ℕ) (g'' : ℤ), shiftZeros s i = some (t, i - k, k) ∧ L ≤ k ∧ k ≤ i ∧
      g' = 2 ^ (k - L) * g'' ∧ (k < i → g'' % 2 = 1) ∧
      VRel (i - k) t ⟨⟨z - k, f, g''⟩, 2 ^ k * u, 2 ^ k * v, q, r⟩ := by
  obtain ⟨k, e, hk, hd, hodd, hmax⟩ := zeros_spec (g := s.g) hi
  have hLg : 2 ^ L ∣ s.g := by
    have h1 : Cong L s.g (2 ^ L * g') := h.g.mono hL
    unfold Cong at h1
    have h2 : (2 : ℤ) ^ L ∣ s.g := (Int.ModEq.dvd_iff h1).mpr (Dvd.intro _ rfl)
    exact_mod_cast h2
  have hLk := hmax L hL hLg
  obtain ⟨g'', hg''⟩ : ∃ g'', 2 ^ L * g' = 2 ^ k * g'' := by
    have h1 : Cong k s.g (2 ^ L * g') := h.g.mono hk
    unfold Cong at h1
    have h2 : (2 : ℤ) ^ k ∣ s.g := by exact_mod_cast hd
    exact (Int.ModEq.dvd_iff h1).mp h2
  have hg' : g' = 2 ^ (k - L) * g'' := by
    have : (2 : ℤ) ^ L * g' = 2 ^ L * (2 ^ (k - L) * g'') := by
      rw [hg'', ← mul_assoc, ← pow_add, show L + (k - L) = k by omega]
    exact mul_left_cancel₀ (by positivity) this
  have hgc := shr_cong hk h.g hg'' hd
  refine ⟨⟨s.z - k, s.f, s.g >>> k, u32 (s.u <<< k), u32 (s.v <<< k), s.q, s.r⟩, k, g'', ?_, hLk, hk,
    hg', ?_, ?_⟩
  · unfold shiftZeros
    dsimp only
    rw [e, if_pos hk]
    have hz' := h.z
    dsimp only at hz'
    rw [abs_le] at hz
    rw [i32?_some (by omega) (by omega), Option.bind_some]
  · intro hlt
    have h1 := hodd hlt
    have h2 := hgc.parity (by omega)
    rw [Nat.shiftRight_eq_div_pow] at h2
    omega
  · refine ⟨⟨h.w.fl, ?_, u32_lt' _, u32_lt' _, h.w.ql, h.w.rl⟩, ?_, h.f.mono (by omega), hgc,
      shl_cong h.u, shl_cong h.v, h.q, h.r⟩
    · dsimp only
      rw [Nat.shiftRight_eq_div_pow]
      exact lt_of_le_of_lt (Nat.div_le_self _ _) h.w.gl
    · have hz' := h.z
      dsimp only at hz' ⊢
      rw [hz']

/-- Adding the multiple keeps the agreement. -/
theorem addMultiple_rel {i : ℕ} {s : DivVars} {z f g u v q r : ℤ} {w : ℕ} (hi : i ≤ 32)
    (h : VRel i s ⟨⟨z, f, g⟩, u, v, q, r⟩) :
    VRel i (addMultiple s w) ⟨⟨z, f, g + w * f⟩, u, v, q + w * u, r + w * v⟩ := by
  have cw : ∀ k, Cong k w (w : ℤ) := fun k => Cong.of_eq rfl
  unfold addMultiple
  refine ⟨⟨h.w.fl, u32_lt' _, h.w.ul, h.w.vl, u32_lt' _, u32_lt' _⟩, h.z, h.f, ?_, h.u, h.v, ?_, ?_⟩
  · exact ((h.g.add ((h.f.mul (cw i)).u32 hi)).u32 hi).congr (by ring)
  · exact ((h.q.add ((h.u.mul (cw 32)).u32 (le_refl _))).u32 (le_refl _)).congr (by ring)
  · exact ((h.r.add ((h.v.mul (cw 32)).u32 (le_refl _))).u32 (le_refl _)).congr (by ring)

/-- The multiple added after the optional exchange. -/
theorem clear_step {i : ℕ} (hi1 : 1 ≤ i) (hi : i ≤ 30) {s : DivVars} {z f g u v q r : ℤ}
    (h0 : 0 ≤ z) (hz : z ≤ 2 ^ 30) (hf : f % 2 = 1) (h : VRel i s ⟨⟨z, f, g⟩, u, v, q, r⟩) :
    ∃ (L w m : ℕ) (g3 : ℤ), 1 ≤ L ∧ L ≤ i ∧ limitMask s.z i = some m ∧ cancel8 s.f s.g m = some w ∧
      (mstep 1)^[L] ⟨⟨z, f, g⟩, u, v, q, r⟩ =
        ⟨⟨z - L, f, g3⟩, 2 ^ L * u, 2 ^ L * v, q + w * u, r + w * v⟩ ∧
      VRel i (addMultiple s w) ⟨⟨z, f, 2 ^ L * g3⟩, u, v, q + w * u, r + w * v⟩ := by
  have sz : s.z = z := h.z
  have hfo : s.f % 2 = 1 := by
    have := h.f.parity hi1; dsimp only at this; omega
  obtain ⟨L, l1, l2, l3, l4, hm⟩ := limitMask_spec (eta := s.z) (i := i) (by omega)
    (by omega) (by omega) (by omega)
  obtain ⟨w, hw, w1, w2⟩ := cancel8_spec (f := s.f) (g := s.g) hfo l4
  have hcl := cong_clear (c := w) h.f h.g l2 w2
  obtain ⟨g3, hg3, hms⟩ := mstep_clear 1 (L := L) (z := z) (f := f) (g := g) (u := u)
    (v := v) (q := q) (r := r) (w := w) hf (by omega) (by omega) (by exact_mod_cast w1) hcl
  have hadd := addMultiple_rel (w := w) (by omega) h
  rw [← hg3] at hadd
  exact ⟨L, w, _, g3, l1, l2, hm, hw, hms, hadd⟩

/-- The loop, started with `L` pending steps: the state after `30 - i + L` steps, shifted back. -/
theorem divsteps30VarLoop_spec (k : ℕ) : ∀ {i L : ℕ} {s : DivVars} {z f g' u v q r : ℤ}, i ≤ 30 → L ≤ i →
    (i < k ∨ (1 ≤ L ∧ i ≤ k)) → |z| + 2 * i ≤ 2 ^ 29 → f % 2 = 1 →
    VRel i s ⟨⟨z, f, 2 ^ L * g'⟩, u, v, q, r⟩ →
    ∃ t, divsteps30VarLoop k s i = some t ∧
      VRel 0 t ((mstep 1)^[i - L] ⟨⟨z - L, f, g'⟩, 2 ^ L * u, 2 ^ L * v, q, r⟩) := by
  induction k with
  | zero => intro i L s z f g' u v q r _ h1 h2; omega
  | succ k ih =>
    intro i L s z f g' u v q r hi hL hk hz hf h
    have hz0 : |z| ≤ 2 ^ 29 := by omega
    obtain ⟨t, c, g'', e, hLc, hc, hg, hodd, ht⟩ := shiftZeros_spec hi hL (by omega) h
    -- after the shift the state is the one after `c` steps
    have hst : (mstep 1)^[i - L] ⟨⟨z - L, f, g'⟩, 2 ^ L * u, 2 ^ L * v, q, r⟩ =
        (mstep 1)^[i - c] ⟨⟨z - c, f, g''⟩, 2 ^ c * u, 2 ^ c * v, q, r⟩ := by
      rw [show i - L = (i - c) + (c - L) by omega, Function.iterate_add_apply, hg, mstep_halve]
      have e1 : z - L - ((c - L : ℕ) : ℤ) = z - c := by omega
      have e2 : ∀ y : ℤ, (2 : ℤ) ^ (c - L) * (2 ^ L * y) = 2 ^ c * y := by
        intro y; rw [← mul_assoc, ← pow_add, show c - L + L = c by omega]
      rw [e1, e2, e2]
    rw [hst]
    unfold divsteps30VarLoop
    rw [e, Option.bind_some]
    dsimp only
    by_cases hi0 : i - c = 0
    · rw [if_pos hi0]
      rw [hi0] at ht ⊢
      exact ⟨t, rfl, ht⟩
    rw [if_neg hi0]
    have hgo := hodd (by omega)
    have tz : t.z = z - c := ht.z
    have hzc : |z - (c : ℤ)| ≤ |z| + c := by
      have := abs_sub z (c : ℤ)
      rwa [abs_of_nonneg (Int.natCast_nonneg c)] at this
    have hz1 := hzc
    rw [abs_le] at hz1
    unfold swapNeg
    by_cases hneg : t.z < 0
    · rw [if_pos hneg, i32?_some (by omega) (by omega), Option.bind_some, Option.bind_some]
      -- the exchanged variables
      have hsw : VRel (i - c) ⟨-t.z, t.g, u32 (2 ^ 32 - t.f), t.q, t.r, u32 (2 ^ 32 - t.u),
          u32 (2 ^ 32 - t.v)⟩ ⟨⟨-(z - c), g'', -f⟩, q, r, -(2 ^ c * u), -(2 ^ c * v)⟩ := by
        refine ⟨⟨ht.w.gl, u32_lt' _, ht.w.ql, ht.w.rl, u32_lt' _, u32_lt' _⟩, ?_, ht.g, ?_, ht.q, ht.r,
          ?_, ?_⟩
        · dsimp only; rw [tz]
        · exact (ht.f.neg32 ht.w.fl.le (by omega)).u32 (by omega)
        · exact (ht.u.neg32 ht.w.ul.le (by omega)).u32 (by omega)
        · exact (ht.v.neg32 ht.w.vl.le (by omega)).u32 (by omega)
      obtain ⟨L', w, m, g3, l1, l2, hm, hw, hms, hadd⟩ := clear_step (by omega) (by omega) (by omega)
        (by omega) hgo hsw
      rw [hm, Option.bind_some, hw, Option.bind_some]
      obtain ⟨t', et', ht'⟩ := ih (i := i - c) (L := L') (by omega) l2 (by omega)
        (by rw [abs_neg]; omega) hgo hadd
      refine ⟨t', et', ?_⟩
      rw [show (mstep 1)^[i - c] (⟨⟨z - c, f, g''⟩, 2 ^ c * u, 2 ^ c * v, q, r⟩ : MS) =
        (mstep 1)^[i - c - L'] ((mstep 1)^[L'] ⟨⟨z - c, f, g''⟩, 2 ^ c * u, 2 ^ c * v, q, r⟩) by
          rw [← Function.iterate_add_apply, show i - c - L' + L' = i - c by omega],
        mstep_swap l1 (by omega) hf hgo, hms]
      exact ht'
    · rw [if_neg hneg, Option.bind_some]
      obtain ⟨L', w, m, g3, l1, l2, hm, hw, hms, hadd⟩ := clear_step (by omega) (by omega) (by omega)
        (by omega) hf ht
      rw [hm, Option.bind_some, hw, Option.bind_some]
      obtain ⟨t', et', ht'⟩ := ih (i := i - c) (L := L') (by omega) l2 (by omega) (by omega) hf hadd
      refine ⟨t', et', ?_⟩
      rw [show (mstep 1)^[i - c] (⟨⟨z - c, f, g''⟩, 2 ^ c * u, 2 ^ c * v, q, r⟩ : MS) =
        (mstep 1)^[i - c - L'] ((mstep 1)^[L'] ⟨⟨z - c, f, g''⟩, 2 ^ c * u, 2 ^ c * v, q, r⟩) by
          rw [← Function.iterate_add_apply, show i - c - L' + L' = i - c by omega], hms]
      exact ht'

/-- The 30 steps of the variable-time variant. -/
theorem divsteps30Var_spec {z F G : ℤ} {f0 g0 : ℕ} (hF : F % 2 = 1) (hz : |z| ≤ 2 ^ 20)
    (hf0 : f0 < 2 ^ 32) (hg0 : g0 < 2 ^ 32) (hf : Cong 30 f0 F) (hg : Cong 30 g0 G) :
    divsteps30Var z f0 g0 = some ((mrun 1 30 ⟨z, F, G⟩).s.z,
      ⟨(mrun 1 30 ⟨z, F, G⟩).u, (mrun 1 30 ⟨z, F, G⟩).v, (mrun 1 30 ⟨z, F, G⟩).q,
        (mrun 1 30 ⟨z, F, G⟩).r⟩) := by
  obtain ⟨t, e, ht⟩ := divsteps30VarLoop_spec 31 (i := 30) (L := 0) (s := ⟨z, f0, g0, 1, 0, 0, 1⟩)
    (z := z) (f := F) (g' := G) (u := 1) (v := 0) (q := 0) (r := 1) (le_refl _) (by norm_num)
    (Or.inl (by norm_num)) (by push_cast; omega) hF
    ⟨⟨hf0, hg0, by norm_num, by norm_num, by norm_num, by norm_num⟩, rfl, hf,
      by rw [pow_zero, one_mul]; exact hg, Cong.of_eq rfl, Cong.of_eq rfl, Cong.of_eq rfl, Cong.of_eq rfl⟩
  have hm : (mstep 1)^[30 - 0] (⟨⟨z - ((0 : ℕ) : ℤ), F, G⟩, 2 ^ 0 * 1, 2 ^ 0 * 0, 0, 1⟩ : MS) =
      mrun 1 30 ⟨z, F, G⟩ := by
    unfold mrun
    norm_num
  rw [hm] at ht
  have hi := mrun_inv 1 (z := z) (G := G) hF 30
  have hi' : MInv F G 30 (mrun 1 30 ⟨z, F, G⟩) := hi
  generalize mrun 1 30 ⟨z, F, G⟩ = mm at *
  have key : ∀ x y : ℤ, |x| + |y| ≤ 2 ^ 30 → -2 ^ 31 ≤ x ∧ x < 2 ^ 31 := by
    intro x y hxy
    have h1 : |x| ≤ 2 ^ 30 := by have := abs_nonneg y; linarith
    rw [abs_le] at h1
    omega
  have hu := key _ _ hi.uv
  have hv := key mm.v mm.u (by linarith [hi.uv])
  have hq := key _ _ hi.qr
  have hr := key mm.r mm.q (by linarith [hi.qr])
  unfold divsteps30Var
  rw [e, Option.bind_some]
  unfold M32.trans
  rw [ht.u.toI32 hu.1 hu.2, ht.v.toI32 hv.1 hv.2, ht.q.toI32 hq.1 hq.2, ht.r.toI32 hr.1 hr.2, ht.z]

end Secp.Model.M32
