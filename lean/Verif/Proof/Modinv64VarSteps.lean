import Verif.Proof.Modinv64Update

/-!
`secp256k1_modinv64_divsteps_62_var` computes the matrix of 62 division steps.
-/

namespace Secp.Divstep

/-- Halvings, with the matrix. -/
theorem mstep_halve (κ : ℤ) (k : ℕ) (z f h u v q r : ℤ) :
    (mstep κ)^[k] ⟨⟨z, f, 2 ^ k * h⟩, u, v, q, r⟩ =
      ⟨⟨z - k, f, h⟩, 2 ^ k * u, 2 ^ k * v, q, r⟩ := by
  induction k generalizing z u v with
  | zero => simp
  | succ k ih =>
    rw [Function.iterate_succ_apply]
    have e : mstep κ ⟨⟨z, f, 2 ^ (k + 1) * h⟩, u, v, q, r⟩ =
        ⟨⟨z - 1, f, 2 ^ k * h⟩, 2 * u, 2 * v, q, r⟩ := by
      have h2 : (2 : ℤ) ^ (k + 1) * h = 2 * (2 ^ k * h) := by ring
      unfold mstep
      rw [h2, divstep_even, if_pos (by dsimp only; omega)]
    rw [e, ih, show z - 1 - (k : ℤ) = z - ((k + 1 : ℕ) : ℤ) by push_cast; ring,
      show (2 : ℤ) ^ k * (2 * u) = 2 ^ (k + 1) * u by ring,
      show (2 : ℤ) ^ k * (2 * v) = 2 ^ (k + 1) * v by ring]

/-- Additions, with the matrix. -/
theorem mstep_add_multiple (κ : ℤ) (L : ℕ) {z f g u v q r : ℤ} (hf : f % 2 = 1)
    (hz : (L : ℤ) ≤ z + 1) :
    ∃ w g' : ℤ, 0 ≤ w ∧ w < 2 ^ L ∧ 2 ^ L * g' = g + w * f ∧
      (mstep κ)^[L] ⟨⟨z, f, g⟩, u, v, q, r⟩ =
        ⟨⟨z - L, f, g'⟩, 2 ^ L * u, 2 ^ L * v, q + w * u, r + w * v⟩ := by
  induction L generalizing z g u v q r with
  | zero => exact ⟨0, g, le_refl _, by norm_num, by ring, by simp⟩
  | succ L ih =>
    push_cast at hz
    have hpos : (0 : ℤ) < 2 ^ L := by positivity
    by_cases hg : g % 2 = 0
    · obtain ⟨w, g', h0, h1, h2, h3⟩ := ih (z := z - 1) (g := g / 2) (u := 2 * u) (v := 2 * v) (q := q)
        (r := r) (by omega)
      have e2 : 2 * (g / 2) = g := by omega
      refine ⟨2 * w, g', by omega, by rw [pow_succ]; omega, ?_, ?_⟩
      · rw [pow_succ]
        linear_combination 2 * h2 + e2
      · rw [Function.iterate_succ_apply]
        have : mstep κ ⟨⟨z, f, g⟩, u, v, q, r⟩ = ⟨⟨z - 1, f, g / 2⟩, 2 * u, 2 * v, q, r⟩ := by
          unfold mstep divstep; rw [if_pos hg, if_pos hg]
        rw [this, h3, show z - 1 - (L : ℤ) = z - ((L + 1 : ℕ) : ℤ) by push_cast; ring,
          show (2 : ℤ) ^ L * (2 * u) = 2 ^ (L + 1) * u by ring,
          show (2 : ℤ) ^ L * (2 * v) = 2 ^ (L + 1) * v by ring,
          show q + w * (2 * u) = q + 2 * w * u by ring, show r + w * (2 * v) = r + 2 * w * v by ring]
    · obtain ⟨w, g', h0, h1, h2, h3⟩ := ih (z := z - 1) (g := (g + f) / 2) (u := 2 * u) (v := 2 * v)
        (q := q + u) (r := r + v) (by omega)
      have e2 : 2 * ((g + f) / 2) = g + f := by omega
      refine ⟨2 * w + 1, g', by omega, by rw [pow_succ]; omega, ?_, ?_⟩
      · rw [pow_succ]
        linear_combination 2 * h2 + e2
      · rw [Function.iterate_succ_apply]
        have : mstep κ ⟨⟨z, f, g⟩, u, v, q, r⟩ =
            ⟨⟨z - 1, f, (g + f) / 2⟩, 2 * u, 2 * v, q + u, r + v⟩ := by
          unfold mstep divstep
          rw [if_neg hg, if_neg hg, if_neg (by dsimp only; omega), if_neg (by dsimp only; omega)]
        rw [this, h3, show z - 1 - (L : ℤ) = z - ((L + 1 : ℕ) : ℤ) by push_cast; ring,
          show (2 : ℤ) ^ L * (2 * u) = 2 ^ (L + 1) * u by ring,
          show (2 : ℤ) ^ L * (2 * v) = 2 ^ (L + 1) * v by ring,
          show q + u + w * (2 * u) = q + (2 * w + 1) * u by ring,
          show r + v + w * (2 * v) = r + (2 * w + 1) * v by ring]

/-- The multiplier is unique. -/
theorem mult_unique {f g w w' : ℤ} {L : ℕ} (hf : f % 2 = 1) (h0 : 0 ≤ w) (h1 : w < 2 ^ L)
    (h0' : 0 ≤ w') (h1' : w' < 2 ^ L) (h : (2 : ℤ) ^ L ∣ g + w * f) (h' : (2 : ℤ) ^ L ∣ g + w' * f) :
    w = w' := by
  have hd : (2 : ℤ) ^ L ∣ f * (w - w') := by
    have := dvd_sub h h'
    rwa [show g + w * f - (g + w' * f) = f * (w - w') by ring] at this
  have h2 : IsCoprime (2 : ℤ) f := ⟨-(f / 2), 1, by omega⟩
  have hd2 : (2 : ℤ) ^ L ∣ w - w' := (h2.pow_left (m := L)).dvd_of_dvd_mul_left hd
  have := Int.eq_zero_of_abs_lt_dvd hd2 (by rw [abs_lt]; omega)
  omega

/-- The multiplier that clears the low bits makes the step. -/
theorem mstep_clear (κ : ℤ) {L : ℕ} {z f g u v q r w : ℤ} (hf : f % 2 = 1) (hz : (L : ℤ) ≤ z + 1)
    (h0 : 0 ≤ w) (h1 : w < 2 ^ L) (h : (2 : ℤ) ^ L ∣ g + w * f) :
    ∃ g' : ℤ, 2 ^ L * g' = g + w * f ∧
      (mstep κ)^[L] ⟨⟨z, f, g⟩, u, v, q, r⟩ =
        ⟨⟨z - L, f, g'⟩, 2 ^ L * u, 2 ^ L * v, q + w * u, r + w * v⟩ := by
  obtain ⟨w', g', a, b, c, d⟩ := mstep_add_multiple κ L (g := g) (u := u) (v := v) (q := q) (r := r) hf hz
  have : w = w' := mult_unique hf h0 h1 a b h ⟨g', c.symm⟩
  subst this
  exact ⟨g', c, d⟩

/-- For the variable-time counter a swap is the same as exchanging first and then adding. -/
theorem mstep_swap {L : ℕ} (hL : 1 ≤ L) {z f g u v q r : ℤ} (hz : z < 0) (hf : f % 2 = 1)
    (hg : g % 2 = 1) :
    (mstep 1)^[L] ⟨⟨z, f, g⟩, u, v, q, r⟩ = (mstep 1)^[L] ⟨⟨-z, g, -f⟩, q, r, -u, -v⟩ := by
  obtain ⟨k, rfl⟩ : ∃ k, L = k + 1 := ⟨L - 1, by omega⟩
  rw [Function.iterate_succ_apply, Function.iterate_succ_apply]
  have e1 : mstep 1 ⟨⟨z, f, g⟩, u, v, q, r⟩ =
      ⟨⟨-z - 1, g, (g - f) / 2⟩, 2 * q, 2 * r, q - u, r - v⟩ := by
    have c1 : ¬ g % 2 = 0 := by omega
    unfold mstep divstep
    rw [if_neg c1, if_neg c1, if_pos hz, if_pos hz]
  have e2 : mstep 1 ⟨⟨-z, g, -f⟩, q, r, -u, -v⟩ =
      ⟨⟨-z - 1, g, (-f + g) / 2⟩, 2 * q, 2 * r, -u + q, -v + r⟩ := by
    have c1 : ¬ -f % 2 = 0 := by omega
    have c2 : ¬ -z < 0 := by omega
    unfold mstep divstep
    rw [if_neg c1, if_neg c1, if_neg c2, if_neg c2]
  rw [e1, e2, show g - f = -f + g by ring, show q - u = -u + q by ring, show r - v = -v + r by ring]

end Secp.Divstep

namespace Secp.Model
open Secp.Divstep

theorem ctzUpTo_spec (k x : ℕ) (b : ℕ) (hb : b < k) (hx : x / 2 ^ b % 2 = 1) :
    2 ^ ctzUpTo k x ∣ x ∧ x / 2 ^ ctzUpTo k x % 2 = 1 := by
  induction k generalizing x b with
  | zero => omega
  | succ k ih =>
    unfold ctzUpTo
    by_cases h : x % 2 = 1
    · rw [if_pos h]; simpa using h
    · rw [if_neg h]
      obtain ⟨c, rfl⟩ : ∃ c, b = c + 1 := by
        cases b with
        | zero => simp at hx; omega
        | succ c => exact ⟨c, rfl⟩
      have e : ∀ n, x / 2 ^ (n + 1) = x / 2 / 2 ^ n := by
        intro n; rw [pow_succ, mul_comm, Nat.div_div_eq_div_mul]
      obtain ⟨i1, i2⟩ := ih (x / 2) c (by omega) (by rw [← e]; exact hx)
      refine ⟨?_, by rw [e]; exact i2⟩
      obtain ⟨y, hy⟩ := i1
      refine ⟨y, ?_⟩
      rw [pow_succ, mul_comm _ 2, mul_assoc, ← hy]
      omega

/-- The number of zeros found. -/
theorem zeros_spec {g i : ℕ} (hi : i ≤ 62) :
    ∃ k, ctz64 (g ||| u64 ((2 ^ 64 - 1) <<< i)) = k ∧ k ≤ i ∧ 2 ^ k ∣ g ∧
      (k < i → g / 2 ^ k % 2 = 1) ∧ ∀ L ≤ i, 2 ^ L ∣ g → L ≤ k := by
  have hmask : u64 ((2 ^ 64 - 1) <<< i) = 2 ^ i * (2 ^ (64 - i) - 1) := by
    unfold u64
    interval_cases i <;> decide
  rw [hmask]
  obtain ⟨y, hy⟩ : ∃ y, y = g ||| 2 ^ i * (2 ^ (64 - i) - 1) := ⟨_, rfl⟩
  rw [← hy]
  have hmod : y % 2 ^ i = g % 2 ^ i := by
    rw [hy, Nat.or_mod_two_pow, Nat.mul_mod_right, Nat.or_zero]
  have hbit : y / 2 ^ i % 2 = 1 := by
    rw [hy, ← Nat.shiftRight_eq_div_pow, Nat.shiftRight_or_distrib]
    have : (2 ^ i * (2 ^ (64 - i) - 1)) >>> i = 2 ^ (64 - i) - 1 := by
      rw [Nat.shiftRight_eq_div_pow, Nat.mul_div_cancel_left _ (by positivity)]
    rw [this, ← Nat.and_one_is_mod, Nat.and_or_distrib_right]
    have h1 : (2 ^ (64 - i) - 1) &&& 1 = 1 := by
      rw [Nat.and_one_is_mod]
      obtain ⟨c, hc⟩ : ∃ c, 64 - i = c + 1 := ⟨63 - i, by omega⟩
      rw [hc, pow_succ]
      have : 0 < 2 ^ c := by positivity
      omega
    rw [h1, Nat.and_one_is_mod]
    rcases Nat.mod_two_eq_zero_or_one (g >>> i) with h | h <;> rw [h] <;> decide
  obtain ⟨c1, c2⟩ := ctzUpTo_spec 64 y i (by omega) hbit
  have hdvd : ∀ L ≤ i, (2 ^ L ∣ y ↔ 2 ^ L ∣ g) := by
    intro L hL
    have hp : 2 ^ L ∣ 2 ^ i := pow_dvd_pow 2 hL
    have e : y % 2 ^ L = g % 2 ^ L := by
      rw [← Nat.mod_mod_of_dvd y hp, hmod, Nat.mod_mod_of_dvd g hp]
    rw [Nat.dvd_iff_mod_eq_zero, Nat.dvd_iff_mod_eq_zero, e]
  have hlt : ∀ a b : ℕ, a < b → 2 ^ b ∣ y → y / 2 ^ a % 2 = 0 := by
    intro a b hab ⟨t, ht⟩
    obtain ⟨c, rfl⟩ : ∃ c, b = a + (c + 1) := ⟨b - a - 1, by omega⟩
    rw [ht, pow_add, mul_assoc, Nat.mul_div_cancel_left _ (by positivity), pow_succ,
      mul_comm _ 2, mul_assoc]
    omega
  have hle : ctz64 y ≤ i := by
    by_contra hc
    have := hlt i (ctz64 y) (by omega) c1
    omega
  refine ⟨ctz64 y, rfl, hle, (hdvd _ hle).mp c1, ?_, ?_⟩
  · intro hk
    -- the bit lies below `i`
    have e : y / 2 ^ ctz64 y % 2 = g / 2 ^ ctz64 y % 2 := by
      obtain ⟨c, hc⟩ : ∃ c, i = ctz64 y + (c + 1) := ⟨i - ctz64 y - 1, by omega⟩
      have h2 : ∀ a : ℕ, a / 2 ^ ctz64 y % 2 = a % 2 ^ i / 2 ^ ctz64 y % 2 := by
        intro a
        rw [hc, pow_add, Nat.mod_mul_right_div_self, Nat.mod_mod_of_dvd]
        exact ⟨2 ^ c, by rw [pow_succ]; ring⟩
      rw [h2, hmod, ← h2]
    rw [← e]; exact c2
  · intro L hL hLg
    by_contra hc
    have := hlt (ctz64 y) L (by omega) ((hdvd L hL).mpr hLg)
    unfold ctz64 at this
    omega

theorem mask_value (l t : ℕ) (hl : 1 ≤ l) (hl2 : l ≤ 64) (ht : t = 4 ∨ t = 6) :
    ((2 ^ 64 - 1) >>> (64 - l)) &&& (2 ^ t - 1) = 2 ^ min l t - 1 := by
  rcases ht with rfl | rfl <;> interval_cases l <;> decide

theorem limitMask_spec {eta : ℤ} {i t : ℕ} (h0 : 0 ≤ eta) (h1 : eta ≤ 2 ^ 30) (hi : 1 ≤ i)
    (hi2 : i ≤ 62) (ht : t = 4 ∨ t = 6) :
    ∃ L : ℕ, 1 ≤ L ∧ L ≤ i ∧ (L : ℤ) ≤ eta + 1 ∧ L ≤ t ∧
      limitMask eta i (2 ^ t - 1) = some (2 ^ L - 1) := by
  obtain ⟨l, hl⟩ : ∃ l : ℕ, (l : ℤ) = if eta + 1 > i then (i : ℤ) else eta + 1 := by
    split
    · exact ⟨i, rfl⟩
    · exact ⟨(eta + 1).toNat, by omega⟩
  have l1 : 1 ≤ l := by split at hl <;> omega
  have l2 : l ≤ i := by split at hl <;> omega
  have l3 : (l : ℤ) ≤ eta + 1 := by split at hl <;> omega
  refine ⟨min l t, by omega, by omega, by omega, by omega, ?_⟩
  unfold limitMask
  rw [toI32_eq (by omega) (by omega), i32?_some (by omega) (by omega), Option.bind_some]
  dsimp only
  rw [← hl, if_pos (by omega), show (64 - (l : ℤ)).toNat = 64 - l by omega,
    mask_value l t l1 (by omega) ht]

theorem cong_clear {k L a b : ℕ} {x y : ℤ} {c : ℕ} (ha : Cong k a x) (hb : Cong k b y) (hL : L ≤ k)
    (h : 2 ^ L ∣ b + c * a) : (2 : ℤ) ^ L ∣ y + c * x := by
  have h1 : ((b + c * a : ℕ) : ℤ) ≡ y + c * x [ZMOD 2 ^ L] :=
    (hb.mono hL).add (Cong.mul (Cong.of_eq rfl) (ha.mono hL))
  have h2 : ((b + c * a : ℕ) : ℤ) ≡ 0 [ZMOD 2 ^ L] := by
    rw [Int.modEq_zero_iff_dvd]
    exact_mod_cast h
  exact Int.modEq_zero_iff_dvd.mp (h1.symm.trans h2)

theorem and_low (x L : ℕ) : x &&& (2 ^ L - 1) = x % 2 ^ L := Nat.and_two_pow_sub_one_eq_mod x L

theorem cancel6_spec {f g L : ℕ} (hf : f % 2 = 1) (hL : L ≤ 6) :
    cancel6 f g (2 ^ L - 1) < 2 ^ L ∧ 2 ^ L ∣ g + cancel6 f g (2 ^ L - 1) * f := by
  unfold cancel6
  rw [and_low]
  refine ⟨Nat.mod_lt _ (by positivity), ?_⟩
  -- compute with integers modulo `2^L`
  obtain ⟨w, hw⟩ : ∃ w, w = u64 (u64 (f * g) * u64 (f * f + (2 ^ 64 - 2))) % 2 ^ L := ⟨_, rfl⟩
  rw [← hw]
  have hc : Cong L w ((f : ℤ) * g * (f * f - 2)) := by
    have h1 : Cong L (u64 (f * g)) ((f : ℤ) * g) := (Cong.of_eq (by push_cast; ring)).u64 (by omega)
    have h2 : Cong L (u64 (f * f + (2 ^ 64 - 2))) ((f : ℤ) * f - 2) := by
      refine Cong.u64 ?_ (by omega)
      have := Cong.add (k := L) (a := f * f) (x := (f : ℤ) * f) (Cong.of_eq (by push_cast; ring))
        (Cong.neg (k := L) (a := 2) (x := 2) (Cong.of_eq rfl) (by norm_num) (by omega))
      exact this.congr (by ring)
    have h3 := (h1.mul h2).u64 (k := L) (by omega)
    rw [hw]
    refine Int.ModEq.trans ?_ h3
    push_cast
    exact Int.mod_modEq _ _
  have h4 : ((g + w * f : ℕ) : ℤ) ≡ g + (f : ℤ) * g * (f * f - 2) * f [ZMOD 2 ^ L] :=
    Cong.add (Cong.of_eq rfl) (Cong.mul hc (Cong.of_eq rfl))
  have h5 : (2 : ℤ) ^ L ∣ g + (f : ℤ) * g * (f * f - 2) * f := by
    have e : (g : ℤ) + (f : ℤ) * g * (f * f - 2) * f = g * ((f * f - 1) * (f * f - 1)) := by ring
    rw [e]
    have h8 : (8 : ℤ) ∣ (f : ℤ) * f - 1 := by
      obtain ⟨k, hk⟩ : ∃ k : ℤ, (f : ℤ) = 2 * k + 1 := ⟨(f : ℤ) / 2, by omega⟩
      rw [hk]
      obtain ⟨j, hj⟩ : ∃ j : ℤ, k * (k + 1) = 2 * j := by
        rcases Int.emod_two_eq_zero_or_one k with h | h
        · exact ⟨k / 2 * (k + 1), by rw [← mul_assoc]; congr 1; omega⟩
        · exact ⟨k * ((k + 1) / 2), by rw [← mul_assoc, mul_comm 2 k, mul_assoc]; congr 1; omega⟩
      exact ⟨j, by linear_combination 4 * hj⟩
    have h64 : (2 : ℤ) ^ L ∣ 8 * 8 := by
      have := pow_dvd_pow (2 : ℤ) hL
      norm_num at this ⊢
      exact this
    exact Dvd.dvd.mul_left (h64.trans (mul_dvd_mul h8 h8)) _
  have h6 := (Int.modEq_zero_iff_dvd.mpr h5)
  have := Int.modEq_zero_iff_dvd.mp (h4.trans h6)
  exact_mod_cast this

theorem cancel4_spec {f g L : ℕ} (hf : f % 2 = 1) (hL : L ≤ 4) :
    cancel4 f g (2 ^ L - 1) < 2 ^ L ∧ 2 ^ L ∣ g + cancel4 f g (2 ^ L - 1) * f := by
  unfold cancel4
  dsimp only
  rw [and_low]
  refine ⟨Nat.mod_lt _ (by positivity), ?_⟩
  obtain ⟨t, ht⟩ : ∃ t, t = (f + ((u64 (f + 1) &&& 4) <<< 1)) % 2 ^ 32 := ⟨_, rfl⟩
  rw [← ht]
  -- `t` is the inverse of `f` modulo 16
  have hinv : t * f % 16 = 1 := by
    have hb : u64 (f + 1) &&& 4 = (f % 16 + 1) &&& 4 := by
      have h1 : ∀ x : ℕ, x &&& 4 = (x % 8) &&& 4 := by
        intro x
        have : (x &&& 4) = (x &&& 4) % 2 ^ 3 := by
          rw [Nat.mod_eq_of_lt]
          exact lt_of_le_of_lt Nat.and_le_right (by norm_num)
        rw [this, Nat.and_mod_two_pow]
      rw [h1, h1 (f % 16 + 1)]
      congr 1
      unfold u64; omega
    rw [hb] at ht
    have ht2 : t % 16 = (f % 16 + (((f % 16 + 1) &&& 4) <<< 1)) % 16 := by rw [ht]; omega
    rw [Nat.mul_mod, ht2]
    have hlt : f % 16 < 16 := Nat.mod_lt _ (by norm_num)
    have hodd : f % 16 % 2 = 1 := by omega
    generalize f % 16 = y at *
    interval_cases y <;> simp_all
  have htl : t < 2 ^ 32 := by rw [ht]; exact Nat.mod_lt _ (by norm_num)
  obtain ⟨w, hw⟩ : ∃ w, w = u64 ((2 ^ 32 - t) % 2 ^ 32 * g) % 2 ^ L := ⟨_, rfl⟩
  rw [← hw]
  have hc : Cong L w (-(t : ℤ) * g) := by
    have h1 : Cong L ((2 ^ 32 - t) % 2 ^ 32) (-(t : ℤ)) := by
      unfold Cong
      have e : (((2 ^ 32 - t) % 2 ^ 32 : ℕ) : ℤ) ≡ -(t : ℤ) [ZMOD 2 ^ 32] := by
        unfold Int.ModEq; omega
      exact Int.ModEq.of_dvd (pow_dvd_pow 2 (by omega)) e
    have h3 := (h1.mul (Cong.of_eq (a := g) rfl)).u64 (k := L) (by omega)
    rw [hw]
    refine Int.ModEq.trans ?_ h3
    push_cast
    exact Int.mod_modEq _ _
  have h4 : ((g + w * f : ℕ) : ℤ) ≡ g + -(t : ℤ) * g * f [ZMOD 2 ^ L] :=
    Cong.add (Cong.of_eq rfl) (Cong.mul hc (Cong.of_eq rfl))
  have h5 : (2 : ℤ) ^ L ∣ g + -(t : ℤ) * g * f := by
    have e : (g : ℤ) + -(t : ℤ) * g * f = -(g * ((t : ℤ) * f - 1)) := by ring
    rw [e, dvd_neg]
    have h16 : (16 : ℤ) ∣ (t : ℤ) * f - 1 := by
      have : ((t * f : ℕ) : ℤ) % 16 = 1 := by omega
      push_cast at this
      omega
    have : (2 : ℤ) ^ L ∣ 16 := by
      have := pow_dvd_pow (2 : ℤ) hL
      norm_num at this ⊢
      exact this
    exact Dvd.dvd.mul_left (this.trans h16) _
  have := Int.modEq_zero_iff_dvd.mp (h4.trans (Int.modEq_zero_iff_dvd.mpr h5))
  exact_mod_cast this

/-- Words in range. -/
structure DivVars.Words (s : DivVars) : Prop where
  fl : s.f < 2 ^ 64
  gl : s.g < 2 ^ 64
  ul : s.u < 2 ^ 64
  vl : s.v < 2 ^ 64
  ql : s.q < 2 ^ 64
  rl : s.r < 2 ^ 64

/-- The C variables agree with integers: `f`, `g` in the lowest `i` bits, the matrix in 64. -/
structure VRel (i : ℕ) (s : DivVars) (a : MS) : Prop where
  w : s.Words
  z : s.z = a.s.z
  f : Cong i s.f a.s.f
  g : Cong i s.g a.s.g
  u : Cong 64 s.u a.u
  v : Cong 64 s.v a.v
  q : Cong 64 s.q a.q
  r : Cong 64 s.r a.r

theorem shl_cong {a k : ℕ} {x : ℤ} (h : Cong 64 a x) : Cong 64 (u64 (a <<< k)) (2 ^ k * x) := by
  refine Cong.u64 ?_ (le_refl _)
  rw [Nat.shiftLeft_eq]
  exact (h.mul (Cong.of_eq (a := 2 ^ k) (x := 2 ^ k) (by push_cast; rfl))).congr (by ring)

theorem shr_cong {a i k : ℕ} {x h : ℤ} (hk : k ≤ i) (hc : Cong i a x) (hx : x = 2 ^ k * h)
    (ha : 2 ^ k ∣ a) : Cong (i - k) (a >>> k) h := by
  obtain ⟨b, hb⟩ := ha
  rw [Nat.shiftRight_eq_div_pow, hb, Nat.mul_div_cancel_left _ (by positivity)]
  unfold Cong at *
  rw [hx, hb] at hc
  rw [Int.modEq_iff_dvd] at hc ⊢
  push_cast at hc
  rw [← mul_sub, show i = k + (i - k) by omega, pow_add,
    Int.mul_dvd_mul_iff_left (by positivity)] at hc
  simpa using hc

/-- The shift at the head of the loop, from a state whose last `L` steps are pending. -/
theorem shiftZeros_spec {i L : ℕ} (hi : i ≤ 62) (hL : L ≤ i) {s : DivVars} {z f g' u v q r : ℤ}
    (hz : |z| ≤ 2 ^ 30) (h : VRel i s ⟨⟨z, f, 2 ^ L * g'⟩, u, v, q, r⟩) :
    ∃ (t : DivVars) (k : ℕ) (g'' : ℤ), shiftZeros s i = some (t, i - k, k) ∧ L ≤ k ∧ k ≤ i ∧
      g' = 2 ^ (k - L) * g'' ∧ (k < i → g'' % 2 = 1) ∧
      VRel (i - k) t ⟨⟨z - k, f, g''⟩, 2 ^ k * u, 2 ^ k * v, q, r⟩ := by
  obtain ⟨k, e, hk, hd, hodd, hmax⟩ := zeros_spec (g := s.g) hi
  have hLg : 2 ^ L ∣ s.g := by
    have h1 : Cong L s.g (2 ^ L * g') := h.g.mono hL
    unfold Cong at h1
    have h2 : (2 : ℤ) ^ L ∣ s.g := (Int.ModEq.dvd_iff h1).mpr (Dvd.intro _ rfl)
    exact_mod_cast h2
  have hLk := hmax L hL hLg
  obtain ⟨g'', hg''⟩ : ∃ g'', 2 ^ L * g' = 2 ^ k * g'' := by
    have h1 : Cong k s.g (2 ^ L * g') := h.g.mono hk
    unfold Cong at h1
    have h2 : (2 : ℤ) ^ k ∣ s.g := by exact_mod_cast hd
    exact (Int.ModEq.dvd_iff h1).mp h2
  have hg' : g' = 2 ^ (k - L) * g'' := by
    have : (2 : ℤ) ^ L * g' = 2 ^ L * (2 ^ (k - L) * g'') := by
      rw [hg'', ← mul_assoc, ← pow_add, show L + (k - L) = k by omega]
    exact mul_left_cancel₀ (by positivity) this
  have hgc := shr_cong hk h.g hg'' hd
  refine ⟨⟨s.z - k, s.f, s.g >>> k, u64 (s.u <<< k), u64 (s.v <<< k), s.q, s.r⟩, k, g'', ?_, hLk, hk,
    hg', ?_, ?_⟩
  · unfold shiftZeros
    dsimp only
    rw [e, if_pos hk]
    have hz' := h.z
    dsimp only at hz'
    rw [abs_le] at hz
    rw [i64?_some (by omega) (by omega), Option.bind_some]
  · intro hlt
    have h1 := hodd hlt
    have h2 := hgc.parity (by omega)
    rw [Nat.shiftRight_eq_div_pow] at h2
    omega
  · refine ⟨⟨h.w.fl, ?_, u64_lt _, u64_lt _, h.w.ql, h.w.rl⟩, ?_, h.f.mono (by omega), hgc,
      shl_cong h.u, shl_cong h.v, h.q, h.r⟩
    · dsimp only
      rw [Nat.shiftRight_eq_div_pow]
      exact lt_of_le_of_lt (Nat.div_le_self _ _) h.w.gl
    · have hz' := h.z
      dsimp only at hz' ⊢
      rw [hz']

/-- Adding the multiple keeps the agreement. -/
theorem addMultiple_rel {i : ℕ} {s : DivVars} {z f g u v q r : ℤ} {w : ℕ} (hi : i ≤ 64)
    (h : VRel i s ⟨⟨z, f, g⟩, u, v, q, r⟩) :
    VRel i (addMultiple s w) ⟨⟨z, f, g + w * f⟩, u, v, q + w * u, r + w * v⟩ := by
  have cw : ∀ k, Cong k w (w : ℤ) := fun k => Cong.of_eq rfl
  unfold addMultiple
  refine ⟨⟨h.w.fl, u64_lt _, h.w.ul, h.w.vl, u64_lt _, u64_lt _⟩, h.z, h.f, ?_, h.u, h.v, ?_, ?_⟩
  · exact ((h.g.add ((h.f.mul (cw i)).u64 hi)).u64 hi).congr (by ring)
  · exact ((h.q.add ((h.u.mul (cw 64)).u64 (le_refl _))).u64 (le_refl _)).congr (by ring)
  · exact ((h.r.add ((h.v.mul (cw 64)).u64 (le_refl _))).u64 (le_refl _)).congr (by ring)

/-- The loop, started with `L` pending steps: the state after `62 - i + L` steps, shifted back. -/
theorem divsteps62VarLoop_spec (k : ℕ) : ∀ {i L : ℕ} {s : DivVars} {z f g' u v q r : ℤ}, i ≤ 62 → L ≤ i →
    (i < k ∨ (1 ≤ L ∧ i ≤ k)) → |z| + 2 * i ≤ 2 ^ 29 → f % 2 = 1 →
    VRel i s ⟨⟨z, f, 2 ^ L * g'⟩, u, v, q, r⟩ →
    ∃ t, divsteps62VarLoop k s i = some t ∧
      VRel 0 t ((mstep 1)^[i - L] ⟨⟨z - L, f, g'⟩, 2 ^ L * u, 2 ^ L * v, q, r⟩) := by
  induction k with
  | zero => intro i L s z f g' u v q r _ h1 h2; omega
  | succ k ih =>
    intro i L s z f g' u v q r hi hL hk hz hf h
    have hz0 : |z| ≤ 2 ^ 29 := by omega
    obtain ⟨t, c, g'', e, hLc, hc, hg, hodd, ht⟩ := shiftZeros_spec hi hL (by omega) h
    -- after the shift the state is the one after `c` steps
    have hst : (mstep 1)^[i - L] ⟨⟨z - L, f, g'⟩, 2 ^ L * u, 2 ^ L * v, q, r⟩ =
        (mstep 1)^[i - c] ⟨⟨z - c, f, g''⟩, 2 ^ c * u, 2 ^ c * v, q, r⟩ := by
      rw [show i - L = (i - c) + (c - L) by omega, Function.iterate_add_apply, hg, mstep_halve]
      have e1 : z - L - ((c - L : ℕ) : ℤ) = z - c := by omega
      have e2 : ∀ y : ℤ, (2 : ℤ) ^ (c - L) * (2 ^ L * y) = 2 ^ c * y := by
        intro y; rw [← mul_assoc, ← pow_add, show c - L + L = c by omega]
      rw [e1, e2, e2]
    rw [hst]
    unfold divsteps62VarLoop
    rw [e, Option.bind_some]
    dsimp only
    by_cases hi0 : i - c = 0
    · rw [if_pos hi0]
      rw [hi0] at ht ⊢
      exact ⟨t, rfl, ht⟩
    rw [if_neg hi0]
    have hgo := hodd (by omega)
    have tz : t.z = z - c := ht.z
    have hfo : t.f % 2 = 1 := by
      have := ht.f.parity (by omega); dsimp only at this; omega
    have hgo' : t.g % 2 = 1 := by
      have := ht.g.parity (by omega); dsimp only at this; omega
    rw [abs_le] at hz0
    by_cases hneg : t.z < 0
    · rw [if_pos hneg, i64?_some (by omega) (by omega), Option.bind_some]
      obtain ⟨L', l1, l2, l3, l4, hm⟩ := limitMask_spec (eta := -t.z) (i := i - c) (t := 6) (by omega)
        (by omega) (by omega) (by omega) (Or.inr rfl)
      rw [show (63 : ℕ) = 2 ^ 6 - 1 from rfl, hm, Option.bind_some]
      -- the exchanged variables
      have hsw : VRel (i - c) ⟨-t.z, t.g, u64 (2 ^ 64 - t.f), t.q, t.r, u64 (2 ^ 64 - t.u),
          u64 (2 ^ 64 - t.v)⟩ ⟨⟨-(z - c), g'', -f⟩, q, r, -(2 ^ c * u), -(2 ^ c * v)⟩ := by
        refine ⟨⟨ht.w.gl, u64_lt _, ht.w.ql, ht.w.rl, u64_lt _, u64_lt _⟩, ?_, ht.g, ?_, ht.q, ht.r, ?_, ?_⟩
        · dsimp only; rw [tz]
        · exact (ht.f.neg ht.w.fl.le (by omega)).u64 (by omega)
        · exact (ht.u.neg ht.w.ul.le (by omega)).u64 (by omega)
        · exact (ht.v.neg ht.w.vl.le (by omega)).u64 (by omega)
      obtain ⟨w1, w2⟩ := cancel6_spec (f := t.g) (g := u64 (2 ^ 64 - t.f)) hgo' l4
      generalize cancel6 t.g (u64 (2 ^ 64 - t.f)) (2 ^ L' - 1) = w at *
      have hcl := cong_clear (c := w) hsw.f hsw.g l2 w2
      obtain ⟨g3, hg3, hms⟩ := mstep_clear 1 (L := L') (z := -(z - c)) (f := g'') (g := -f) (u := q) (v := r)
        (q := -(2 ^ c * u)) (r := -(2 ^ c * v)) (w := w) hgo (by omega) (by omega)
        (by exact_mod_cast w1) hcl
      have hadd := addMultiple_rel (w := w) (by omega) hsw
      rw [← hg3] at hadd
      obtain ⟨t', et', ht'⟩ := ih (i := i - c) (L := L') (by omega) l2 (by omega)
        (by
          have : |-(z - (c : ℤ))| ≤ |z| + c := by
            rw [abs_neg]
            have := abs_sub z (c : ℤ)
            rwa [abs_of_nonneg (Int.natCast_nonneg c)] at this
          omega) hgo hadd
      refine ⟨t', et', ?_⟩
      rw [show (mstep 1)^[i - c] (⟨⟨z - c, f, g''⟩, 2 ^ c * u, 2 ^ c * v, q, r⟩ : MS) =
        (mstep 1)^[i - c - L'] ((mstep 1)^[L'] ⟨⟨z - c, f, g''⟩, 2 ^ c * u, 2 ^ c * v, q, r⟩) by
          rw [← Function.iterate_add_apply, show i - c - L' + L' = i - c by omega],
        mstep_swap l1 (by omega) hf hgo, hms]
      exact ht'
    · rw [if_neg hneg]
      obtain ⟨L', l1, l2, l3, l4, hm⟩ := limitMask_spec (eta := t.z) (i := i - c) (t := 4) (by omega)
        (by omega) (by omega) (by omega) (Or.inl rfl)
      rw [show (15 : ℕ) = 2 ^ 4 - 1 from rfl, hm, Option.bind_some]
      obtain ⟨w1, w2⟩ := cancel4_spec (f := t.f) (g := t.g) hfo l4
      generalize cancel4 t.f t.g (2 ^ L' - 1) = w at *
      have hcl := cong_clear (c := w) ht.f ht.g l2 w2
      obtain ⟨g3, hg3, hms⟩ := mstep_clear 1 (L := L') (z := z - c) (f := f) (g := g'') (u := 2 ^ c * u)
        (v := 2 ^ c * v) (q := q) (r := r) (w := w) hf (by omega) (by omega)
        (by exact_mod_cast w1) hcl
      have hadd := addMultiple_rel (w := w) (by omega) ht
      rw [← hg3] at hadd
      obtain ⟨t', et', ht'⟩ := ih (i := i - c) (L := L') (by omega) l2 (by omega)
        (by
          have := abs_sub z (c : ℤ)
          rw [abs_of_nonneg (Int.natCast_nonneg c)] at this
          omega) hf hadd
      refine ⟨t', et', ?_⟩
      rw [show (mstep 1)^[i - c] (⟨⟨z - c, f, g''⟩, 2 ^ c * u, 2 ^ c * v, q, r⟩ : MS) =
        (mstep 1)^[i - c - L'] ((mstep 1)^[L'] ⟨⟨z - c, f, g''⟩, 2 ^ c * u, 2 ^ c * v, q, r⟩) by
          rw [← Function.iterate_add_apply, show i - c - L' + L' = i - c by omega], hms]
      exact ht'

/-- The 62 steps of the variable-time variant. -/
theorem divsteps62Var_spec {z F G : ℤ} {f0 g0 : ℕ} (hF : F % 2 = 1) (hz : |z| ≤ 2 ^ 20)
    (hf0 : f0 < 2 ^ 64) (hg0 : g0 < 2 ^ 64) (hf : Cong 62 f0 F) (hg : Cong 62 g0 G) :
    divsteps62Var z f0 g0 = some ((mrun 1 62 ⟨z, F, G⟩).s.z,
      ⟨(mrun 1 62 ⟨z, F, G⟩).u, (mrun 1 62 ⟨z, F, G⟩).v, (mrun 1 62 ⟨z, F, G⟩).q,
        (mrun 1 62 ⟨z, F, G⟩).r⟩) := by
  obtain ⟨t, e, ht⟩ := divsteps62VarLoop_spec 63 (i := 62) (L := 0) (s := ⟨z, f0, g0, 1, 0, 0, 1⟩)
    (z := z) (f := F) (g' := G) (u := 1) (v := 0) (q := 0) (r := 1) (le_refl _) (by norm_num)
    (Or.inl (by norm_num)) (by push_cast; omega) hF
    ⟨⟨hf0, hg0, by norm_num, by norm_num, by norm_num, by norm_num⟩, rfl, hf,
      by rw [pow_zero, one_mul]; exact hg, Cong.of_eq rfl, Cong.of_eq rfl, Cong.of_eq rfl, Cong.of_eq rfl⟩
  have hm : (mstep 1)^[62 - 0] (⟨⟨z - ((0 : ℕ) : ℤ), F, G⟩, 2 ^ 0 * 1, 2 ^ 0 * 0, 0, 1⟩ : MS) =
      mrun 1 62 ⟨z, F, G⟩ := by
    unfold mrun
    norm_num
  rw [hm] at ht
  have hi := mrun_inv 1 (z := z) (G := G) hF 62
  have hi' : MInv F G 62 (mrun 1 62 ⟨z, F, G⟩) := hi
  generalize mrun 1 62 ⟨z, F, G⟩ = mm at *
  have key : ∀ x y : ℤ, |x| + |y| ≤ 2 ^ 62 → -2 ^ 63 ≤ x ∧ x < 2 ^ 63 := by
    intro x y hxy
    have h1 : |x| ≤ 2 ^ 62 := by have := abs_nonneg y; linarith
    rw [abs_le] at h1
    omega
  have hu := key _ _ hi.uv
  have hv := key mm.v mm.u (by linarith [hi.uv])
  have hq := key _ _ hi.qr
  have hr := key mm.r mm.q (by linarith [hi.qr])
  unfold divsteps62Var
  rw [e, Option.bind_some]
  unfold DivVars.trans
  rw [ht.u.toI64 hu.1 hu.2, ht.v.toI64 hv.1 hv.2, ht.q.toI64 hq.1 hq.2, ht.r.toI64 hr.1 hr.2, ht.z]

end Secp.Model
