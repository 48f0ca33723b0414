import Verif.Proof.Scalar4x64Mul

/-!
# Helper lemmas: the other operations of scalars on limbs
-/

namespace Secp
open Model

theorem land_ones64 {x : ℕ} (h : x < 2 ^ 64) : x &&& (2 ^ 64 - 1) = x := by
  rw [Nat.and_two_pow_sub_one_eq_mod, Nat.mod_eq_of_lt h]

theorem xor_ones64 {x : ℕ} (h : x < 2 ^ 64) : x ^^^ (2 ^ 64 - 1) = 2 ^ 64 - 1 - x := by
  have hb : BitVec.ofNat 64 x ^^^ BitVec.allOnes 64 = ~~~ BitVec.ofNat 64 x := by
    rw [BitVec.xor_allOnes]
  have := congrArg BitVec.toNat hb
  rw [BitVec.toNat_xor, BitVec.toNat_not, BitVec.toNat_ofNat, BitVec.toNat_allOnes,
    Nat.mod_eq_of_lt h] at this
  exact this

theorem xor_zero_iff {a b : ℕ} : a ^^^ b = 0 ↔ a = b := by
  rw [xor_eq_iff, Nat.zero_xor]

theorem or_eq_zero4 {a b c d : ℕ} : a ||| b ||| c ||| d = 0 ↔ a = 0 ∧ b = 0 ∧ c = 0 ∧ d = 0 := by
  simp only [Nat.or_eq_zero_iff, and_assoc]

namespace Model.Sc4

theorem addRaw_spec {a b : Sc4} (ha : a.Words) (hb : b.Words) :
    (addRaw a b).1.Words ∧ (addRaw a b).1.nat + (addRaw a b).2 * 2 ^ 256 = a.nat + b.nat := by
  obtain ⟨a0, a1, a2, a3⟩ := ha
  obtain ⟨b0, b1, b2, b3⟩ := hb
  unfold addRaw u128ToU64 u128Rshift u128AccumU64 u64 nat
  simp only [Nat.shiftRight_eq_div_pow]
  obtain ⟨t0, e0⟩ : ∃ t, t = a.d0 + b.d0 := ⟨_, rfl⟩
  rw [← e0, Nat.mod_eq_of_lt (show t0 < 2 ^ 128 by omega),
    Nat.mod_eq_of_lt (show t0 / 2 ^ 64 + a.d1 < 2 ^ 128 by omega)]
  obtain ⟨t1, e1⟩ : ∃ t, t = t0 / 2 ^ 64 + a.d1 + b.d1 := ⟨_, rfl⟩
  rw [← e1, Nat.mod_eq_of_lt (show t1 < 2 ^ 128 by omega),
    Nat.mod_eq_of_lt (show t1 / 2 ^ 64 + a.d2 < 2 ^ 128 by omega)]
  obtain ⟨t2, e2⟩ : ∃ t, t = t1 / 2 ^ 64 + a.d2 + b.d2 := ⟨_, rfl⟩
  rw [← e2, Nat.mod_eq_of_lt (show t2 < 2 ^ 128 by omega),
    Nat.mod_eq_of_lt (show t2 / 2 ^ 64 + a.d3 < 2 ^ 128 by omega)]
  obtain ⟨t3, e3⟩ : ∃ t, t = t2 / 2 ^ 64 + a.d3 + b.d3 := ⟨_, rfl⟩
  rw [← e3, Nat.mod_eq_of_lt (show t3 < 2 ^ 128 by omega),
    Nat.mod_eq_of_lt (show t3 / 2 ^ 64 < 2 ^ 64 by omega)]
  refine ⟨⟨?_, ?_, ?_, ?_⟩, ?_⟩ <;> (try dsimp only) <;> omega

theorem add_spec {a b : Sc4} (ha : a.Words) (hb : b.Words) (hla : a.nat < n) (hlb : b.nat < n) :
    (add a b).1.Words ∧ (add a b).1.nat = (a.nat + b.nat) % n ∧
      (add a b).2 = if n ≤ a.nat + b.nat then 1 else 0 := by
  obtain ⟨hw, hv⟩ := addRaw_spec ha hb
  obtain ⟨h1, h2, h3, h4⟩ := reduce_final (r := (addRaw a b).1) (c := (addRaw a b).2) hw (by omega)
  unfold add
  simp only
  refine ⟨h3, by rw [h4, hv], ?_⟩
  rw [hv] at h2
  split_ifs with h
  · exact h2.2 h
  · have := mt h2.1 h
    omega

theorem isZero_iff {a : Sc4} : a.isZero = true ↔ a.nat = 0 := by
  unfold isZero nat
  rw [decide_eq_true_eq, or_eq_zero4]
  omega

theorem isZero_false {a : Sc4} : a.isZero = false ↔ a.nat ≠ 0 := by
  rw [Ne, ← isZero_iff, Bool.not_eq_true]

theorem isOne_iff {a : Sc4} : a.isOne = true ↔ a.nat = 1 ∧ a.d1 = 0 ∧ a.d2 = 0 ∧ a.d3 = 0 := by
  unfold isOne nat
  rw [decide_eq_true_eq, or_eq_zero4, xor_zero_iff]
  omega

theorem eq_iff {a b : Sc4} : eq a b = true ↔ a = b := by
  unfold eq
  rw [decide_eq_true_eq, or_eq_zero4, xor_zero_iff, xor_zero_iff, xor_zero_iff,
    xor_zero_iff, Sc4.ext_iff]

theorem nat_inj {a b : Sc4} (ha : a.Words) (hb : b.Words) (h : a.nat = b.nat) : a = b := by
  obtain ⟨a0, a1, a2, a3⟩ := ha
  obtain ⟨b0, b1, b2, b3⟩ := hb
  unfold nat at h
  ext <;> omega

theorem isEven_iff {a : Sc4} : a.isEven = true ↔ a.nat % 2 = 0 := by
  unfold isEven nat
  rw [decide_eq_true_eq, land_one']
  omega

theorem isHigh_iff {a : Sc4} (ha : a.Words) : a.isHigh = true ↔ n / 2 < a.nat := by
  obtain ⟨h0, h1, h2, h3⟩ := ha
  rw [n_lit]
  unfold isHigh nat scNH0 scNH1 scNH2 scNH3
  simp only [Bool.false_or, Bool.or_eq_true, Bool.and_eq_true, Bool.not_eq_true', decide_eq_true_eq,
    Bool.or_eq_false_iff, decide_eq_false_iff_not, Bool.and_eq_false_iff, Bool.not_eq_false',
    Bool.not_false, and_true]
  omega

theorem negate_zero {a : Sc4} (h : a.nat = 0) : a.negate = ⟨0, 0, 0, 0⟩ := by
  unfold negate
  simp only [isZero_iff.2 h, Bool.not_true, show u64 (0xFFFFFFFFFFFFFFFF * bit false) = 0 by decide,
    Nat.and_zero]

theorem negate_spec {a : Sc4} (ha : a.Words) (h : a.nat ≠ 0) (hl : a.nat < n) :
    a.negate.Words ∧ a.negate.nat = n - a.nat := by
  obtain ⟨a0, a1, a2, a3⟩ := ha
  have hz := isZero_false.2 h
  unfold negate
  simp only [hz, Bool.not_false, show u64 (0xFFFFFFFFFFFFFFFF * bit true) = 2 ^ 64 - 1 by decide,
    Nat.and_two_pow_sub_one_eq_mod]
  rw [n_lit] at *
  unfold u128ToU64 u128Rshift u128AccumU64 u64 nat not64 scN0 scN1 scN2 scN3
  unfold nat at hl h
  simp only [Nat.shiftRight_eq_div_pow, Nat.mod_mod]
  obtain ⟨t0, e0⟩ : ∃ t, t = 2 ^ 64 - 1 - a.d0 + (0xBFD25E8CD0364141 + 1) % 2 ^ 64 := ⟨_, rfl⟩
  rw [← e0, Nat.mod_eq_of_lt (show t0 < 2 ^ 128 by omega),
    Nat.mod_eq_of_lt (show t0 / 2 ^ 64 + (2 ^ 64 - 1 - a.d1) < 2 ^ 128 by omega)]
  obtain ⟨t1, e1⟩ : ∃ t, t = t0 / 2 ^ 64 + (2 ^ 64 - 1 - a.d1) + 0xBAAEDCE6AF48A03B := ⟨_, rfl⟩
  rw [← e1, Nat.mod_eq_of_lt (show t1 < 2 ^ 128 by omega),
    Nat.mod_eq_of_lt (show t1 / 2 ^ 64 + (2 ^ 64 - 1 - a.d2) < 2 ^ 128 by omega)]
  obtain ⟨t2, e2⟩ : ∃ t, t = t1 / 2 ^ 64 + (2 ^ 64 - 1 - a.d2) + 0xFFFFFFFFFFFFFFFE := ⟨_, rfl⟩
  rw [← e2, Nat.mod_eq_of_lt (show t2 < 2 ^ 128 by omega),
    Nat.mod_eq_of_lt (show t2 / 2 ^ 64 + (2 ^ 64 - 1 - a.d3) < 2 ^ 128 by omega)]
  obtain ⟨t3, e3⟩ : ∃ t, t = t2 / 2 ^ 64 + (2 ^ 64 - 1 - a.d3) + 0xFFFFFFFFFFFFFFFF := ⟨_, rfl⟩
  rw [← e3, Nat.mod_eq_of_lt (show t3 < 2 ^ 128 by omega)]
  refine ⟨⟨?_, ?_, ?_, ?_⟩, ?_⟩ <;> (try dsimp only) <;> omega

theorem condNegate_true (r : Sc4) (hr : r.Words) : r.condNegate true = (r.negate, -1) := by
  obtain ⟨a0, a1, a2, a3⟩ := hr
  unfold condNegate negate
  have hm : (2 ^ 64 - bit true) % 2 ^ 64 = 2 ^ 64 - 1 := by decide
  have hnz : (bit r.isZero + 2 ^ 64 - 1) % 2 ^ 64 = u64 (0xFFFFFFFFFFFFFFFF * bit !r.isZero) := by
    cases r.isZero <;> decide
  rw [hm, hnz]
  dsimp only
  rw [xor_ones64 a0, xor_ones64 a1, xor_ones64 a2, xor_ones64 a3,
    land_ones64 (show u64 (scN0 + 1) < 2 ^ 64 by decide), land_ones64 (show scN1 < 2 ^ 64 by decide),
    land_ones64 (show scN2 < 2 ^ 64 by decide), land_ones64 (show scN3 < 2 ^ 64 by decide)]
  rfl

theorem condNegate_false (r : Sc4) (hr : r.Words) : r.condNegate false = (r, 1) := by
  obtain ⟨a0, a1, a2, a3⟩ := hr
  unfold condNegate
  have hm : (2 ^ 64 - bit false) % 2 ^ 64 = 0 := by decide
  rw [hm]
  simp only [Nat.xor_zero, Nat.and_zero]
  unfold u128ToU64 u128Rshift u128AccumU64 u64
  simp only [Nat.shiftRight_eq_div_pow, add_zero]
  cases hz : r.isZero
  · have hnz : (bit false + 2 ^ 64 - 1) % 2 ^ 64 = 2 ^ 64 - 1 := by decide
    rw [hnz]
    simp only [Nat.and_two_pow_sub_one_eq_mod, if_true, Prod.mk.injEq, and_true]
    ext <;> dsimp only <;> omega
  · have hnz : (bit true + 2 ^ 64 - 1) % 2 ^ 64 = 0 := by decide
    rw [hnz]
    simp only [Nat.and_zero, if_true, Prod.mk.injEq, and_true]
    unfold isZero at hz
    rw [decide_eq_true_eq, or_eq_zero4] at hz
    obtain ⟨z0, z1, z2, z3⟩ := hz
    ext
    exacts [z0.symm, z1.symm, z2.symm, z3.symm]

theorem half_spec {a : Sc4} (ha : a.Words) (hl : a.nat < n) :
    a.half.Words ∧ a.half.nat = if a.nat % 2 = 0 then a.nat / 2 else (a.nat + n) / 2 := by
  obtain ⟨a0, a1, a2, a3⟩ := ha
  have hm : a.nat % 2 = a.d0 % 2 := by unfold nat; omega
  rw [hm]
  unfold half
  rw [land_one']
  have eo : ∀ x y : ℕ, x < 2 ^ 64 → (x >>> 1) ||| u64 (y <<< 63) = x / 2 + (y % 2) * 2 ^ 63 := by
    intro x y hx
    have e1 : u64 (y <<< 63) = (y % 2) <<< 63 := by
      unfold u64
      rw [Nat.shiftLeft_eq, Nat.shiftLeft_eq]
      omega
    rw [e1, Nat.shiftRight_eq_div_pow, or_shl (by omega)]
  rw [eo _ _ a0, eo _ _ a1, eo _ _ a2]
  rw [n_lit] at *
  unfold nat at hl
  rcases Nat.mod_two_eq_zero_or_one a.d0 with h2 | h2
  · rw [h2, if_pos rfl]
    simp only [Nat.sub_zero, Nat.mod_self, Nat.and_zero]
    unfold u128ToU64 u128Rshift u128AccumU64 u64 nat
    simp only [Nat.shiftRight_eq_div_pow, add_zero]
    obtain ⟨t0, e0⟩ : ∃ t, t = a.d0 / 2 + a.d1 % 2 * 2 ^ 63 := ⟨_, rfl⟩
    rw [← e0, Nat.mod_eq_of_lt (show t0 < 2 ^ 128 by omega),
      Nat.div_eq_of_lt (show t0 < 2 ^ 64 by omega), Nat.zero_add]
    obtain ⟨t1, e1⟩ : ∃ t, t = a.d1 / 2 + a.d2 % 2 * 2 ^ 63 := ⟨_, rfl⟩
    rw [← e1, Nat.mod_eq_of_lt (show t1 < 2 ^ 128 by omega),
      Nat.mod_eq_of_lt (show t1 < 2 ^ 128 by omega),
      Nat.div_eq_of_lt (show t1 < 2 ^ 64 by omega), Nat.zero_add]
    obtain ⟨t2, e2⟩ : ∃ t, t = a.d2 / 2 + a.d3 % 2 * 2 ^ 63 := ⟨_, rfl⟩
    rw [← e2, Nat.mod_eq_of_lt (show t2 < 2 ^ 128 by omega),
      Nat.mod_eq_of_lt (show t2 < 2 ^ 128 by omega),
      Nat.div_eq_of_lt (show t2 < 2 ^ 64 by omega)]
    refine ⟨⟨?_, ?_, ?_, ?_⟩, ?_⟩ <;> (try dsimp only) <;> omega
  · rw [h2, if_neg (by decide)]
    have hk : (2 ^ 64 - 1) % 2 ^ 64 = 2 ^ 64 - 1 := by decide
    rw [hk]
    dsimp only
    rw [land_ones64 (show u64 (scNH0 + 1) < 2 ^ 64 by decide),
      land_ones64 (show scNH1 < 2 ^ 64 by decide), land_ones64 (show scNH2 < 2 ^ 64 by decide),
      land_ones64 (show scNH3 < 2 ^ 64 by decide)]
    unfold u128ToU64 u128Rshift u128AccumU64 u64 nat scNH0 scNH1 scNH2 scNH3
    simp only [Nat.shiftRight_eq_div_pow]
    obtain ⟨t0, e0⟩ : ∃ t, t = a.d0 / 2 + a.d1 % 2 * 2 ^ 63 + (0xDFE92F46681B20A0 + 1) % 2 ^ 64 :=
      ⟨_, rfl⟩
    rw [← e0, Nat.mod_eq_of_lt (show t0 < 2 ^ 128 by omega)]
    obtain ⟨s1, f1⟩ : ∃ t, t = t0 / 2 ^ 64 + (a.d1 / 2 + a.d2 % 2 * 2 ^ 63) := ⟨_, rfl⟩
    rw [← f1, Nat.mod_eq_of_lt (show s1 < 2 ^ 128 by omega)]
    obtain ⟨t1, e1⟩ : ∃ t, t = s1 + 0x5D576E7357A4501D := ⟨_, rfl⟩
    rw [← e1, Nat.mod_eq_of_lt (show t1 < 2 ^ 128 by omega)]
    obtain ⟨s2, f2⟩ : ∃ t, t = t1 / 2 ^ 64 + (a.d2 / 2 + a.d3 % 2 * 2 ^ 63) := ⟨_, rfl⟩
    rw [← f2, Nat.mod_eq_of_lt (show s2 < 2 ^ 128 by omega)]
    obtain ⟨t2, e2⟩ : ∃ t, t = s2 + 0xFFFFFFFFFFFFFFFF := ⟨_, rfl⟩
    rw [← e2, Nat.mod_eq_of_lt (show t2 < 2 ^ 128 by omega),
      Nat.mod_eq_of_lt (show t2 / 2 ^ 64 < 2 ^ 64 by omega)]
    refine ⟨⟨?_, ?_, ?_, ?_⟩, ?_⟩ <;> (try dsimp only) <;> omega

theorem cmov_eq {r a : Sc4} (hr : r.Words) (ha : a.Words) (flag : Bool) :
    cmov r a flag = if flag then a else r := by
  obtain ⟨r0, r1, r2, r3⟩ := hr
  obtain ⟨a0, a1, a2, a3⟩ := ha
  unfold cmov
  cases flag
  · have h0 : u64 (bit false + (2 ^ 64 - 1)) = 2 ^ 64 - 1 := by decide
    have h1 : not64 (2 ^ 64 - 1) = 0 := by decide
    rw [h0]
    simp only [h1, Nat.and_zero, Nat.or_zero]
    rw [land_ones64 r0, land_ones64 r1, land_ones64 r2, land_ones64 r3]
    rfl
  · have h0 : u64 (bit true + (2 ^ 64 - 1)) = 0 := by decide
    have h1 : not64 0 = 2 ^ 64 - 1 := by decide
    rw [h0]
    simp only [h1, Nat.and_zero, Nat.zero_or]
    rw [land_ones64 a0, land_ones64 a1, land_ones64 a2, land_ones64 a3]
    rfl

theorem caddBit_noop {r : Sc4} (hr : r.Words) {b : ℕ} (hb : b < 256) : r.caddBit b false = r := by
  obtain ⟨a0, a1, a2, a3⟩ := hr
  unfold caddBit
  have h0 : ((bit false + 2 ^ 32 - 1) % 2 ^ 32) &&& 0x100 = 256 := by decide
  rw [h0]
  simp only [Nat.shiftRight_eq_div_pow]
  rw [decide_eq_false (show ¬ (b + 256) / 2 ^ 6 = 0 by omega),
    decide_eq_false (show ¬ (b + 256) / 2 ^ 6 = 1 by omega),
    decide_eq_false (show ¬ (b + 256) / 2 ^ 6 = 2 by omega),
    decide_eq_false (show ¬ (b + 256) / 2 ^ 6 = 3 by omega)]
  have hz : ∀ k, u64 (bit false <<< k) = 0 := by
    intro k
    rw [Nat.shiftLeft_eq, show bit false = 0 from rfl, Nat.zero_mul]
    rfl
  simp only [hz]
  unfold u128ToU64 u128Rshift u128AccumU64 u64
  simp only [Nat.shiftRight_eq_div_pow, add_zero]
  ext <;> dsimp only <;> omega

theorem carry4_spec {a : Sc4} (ha : a.Words) {x0 x1 x2 x3 : ℕ} (h0 : x0 < 2 ^ 64) (h1 : x1 < 2 ^ 64)
    (h2 : x2 < 2 ^ 64) (h3 : x3 < 2 ^ 64)
    (hs : a.nat + (x0 + x1 * 2 ^ 64 + x2 * 2 ^ 128 + x3 * 2 ^ 192) < 2 ^ 256) :
    let t0 := (a.d0 + x0) % 2 ^ 128
    let t1 := ((t0 / 2 ^ 64 + a.d1) % 2 ^ 128 + x1) % 2 ^ 128
    let t2 := ((t1 / 2 ^ 64 + a.d2) % 2 ^ 128 + x2) % 2 ^ 128
    let t3 := ((t2 / 2 ^ 64 + a.d3) % 2 ^ 128 + x3) % 2 ^ 128
    (Sc4.mk (t0 % 2 ^ 64) (t1 % 2 ^ 64) (t2 % 2 ^ 64) (t3 % 2 ^ 64)).nat =
      a.nat + (x0 + x1 * 2 ^ 64 + x2 * 2 ^ 128 + x3 * 2 ^ 192) := by
  obtain ⟨a0, a1, a2, a3⟩ := ha
  intro t0 t1 t2 t3
  have e0 : t0 = a.d0 + x0 := Nat.mod_eq_of_lt (by omega)
  have e1 : t1 = t0 / 2 ^ 64 + a.d1 + x1 := by simp only [t1]; omega
  have e2 : t2 = t1 / 2 ^ 64 + a.d2 + x2 := by
    clear_value t0
    simp only [t2]; omega
  have e3 : t3 = t2 / 2 ^ 64 + a.d3 + x3 := by
    clear_value t0 t1
    simp only [t3]; omega
  clear_value t0 t1 t2 t3
  unfold nat at *
  dsimp only
  omega

theorem caddBit_spec {r : Sc4} (hr : r.Words) {b : ℕ} (hb : b < 256)
    (hs : r.nat + 2 ^ b < 2 ^ 256) :
    (r.caddBit b true).Words ∧ (r.caddBit b true).nat = r.nat + 2 ^ b := by
  constructor
  · unfold caddBit u128ToU64 u64
    exact ⟨Nat.mod_lt _ (by decide), Nat.mod_lt _ (by decide), Nat.mod_lt _ (by decide),
      Nat.mod_lt _ (by decide)⟩
  unfold caddBit
  have h0 : ((bit true + 2 ^ 32 - 1) % 2 ^ 32) &&& 0x100 = 0 := by decide
  rw [h0]
  simp only [Nat.add_zero, Nat.shiftRight_eq_div_pow, land_3f]
  have hpow : 2 ^ (b % 2 ^ 6) < 2 ^ 64 := Nat.pow_lt_pow_right (by decide) (by omega)
  have hx : ∀ k, u64 (bit (decide (b / 2 ^ 6 = k)) <<< (b % 2 ^ 6)) =
      if b / 2 ^ 6 = k then 2 ^ (b % 2 ^ 6) else 0 := by
    intro k
    unfold u64
    rw [Nat.shiftLeft_eq, bit_eq]
    by_cases h : b / 2 ^ 6 = k
    · simp only [h, decide_true, if_true, Nat.one_mul, Nat.mod_eq_of_lt hpow]
    · simp only [h, decide_false, Bool.false_eq_true, if_false, Nat.zero_mul, Nat.zero_mod]
  simp only [hx]
  have hlt : ∀ k, (if b / 2 ^ 6 = k then 2 ^ (b % 2 ^ 6) else 0) < 2 ^ 64 := by
    intro k
    split_ifs
    · exact hpow
    · decide
  have hsum : (if b / 2 ^ 6 = 0 then 2 ^ (b % 2 ^ 6) else 0) +
      (if b / 2 ^ 6 = 1 then 2 ^ (b % 2 ^ 6) else 0) * 2 ^ 64 +
      (if b / 2 ^ 6 = 2 then 2 ^ (b % 2 ^ 6) else 0) * 2 ^ 128 +
      (if b / 2 ^ 6 = 3 then 2 ^ (b % 2 ^ 6) else 0) * 2 ^ 192 = 2 ^ b := by
    have hb' : 2 ^ b = 2 ^ (b % 2 ^ 6) * 2 ^ (64 * (b / 2 ^ 6)) := by
      rw [← pow_add]
      congr 1
      omega
    rw [hb']
    have : b / 2 ^ 6 = 0 ∨ b / 2 ^ 6 = 1 ∨ b / 2 ^ 6 = 2 ∨ b / 2 ^ 6 = 3 := by omega
    rcases this with h | h | h | h <;> rw [h] <;> norm_num
  have := carry4_spec hr (hlt 0) (hlt 1) (hlt 2) (hlt 3) (by rw [hsum]; exact hs)
  rw [hsum] at this
  unfold u128ToU64 u128Rshift u128AccumU64 u64
  simp only [Nat.shiftRight_eq_div_pow]
  exact this

theorem split128_spec {k : Sc4} (hk : k.Words) :
    k.split128.1.Words ∧ k.split128.2.Words ∧ k.split128.1.nat = k.nat % 2 ^ 128 ∧
      k.split128.2.nat = k.nat / 2 ^ 128 := by
  obtain ⟨a0, a1, a2, a3⟩ := hk
  unfold split128 nat
  have z : 0 < 2 ^ 64 := by decide
  refine ⟨⟨a0, a1, z, z⟩, ⟨a2, a3, z, z⟩, ?_, ?_⟩ <;> dsimp only <;> omega

theorem const_spec {v : ℕ} (hv : v < 2 ^ 256) : (const v).Words ∧ (const v).nat = v := by
  unfold const nat
  refine ⟨⟨?_, ?_, ?_, ?_⟩, ?_⟩ <;> (try dsimp only) <;> omega

end Model.Sc4
end Secp
