import Verif.Proof.VerifyScalar4
import Verif.Props.C44
import Verif.Props.C46

/-!
# The checks of a `VERIFY` build hold in the scalar code on 64-bit limbs
-/

namespace Secp.Model.Verify
open Secp Sc4

theorem scVerify_rep {a : Sc4} {v : Fn} (h : a.Rep v) : scVerify a = some () := scVerify_ok h.words h.lt

theorem scMulV_ok {a b : Sc4} {v w : Fn} (ha : a.Rep v) (hb : b.Rep w) : scMulV a b = some (Sc4.mul a b) := by
  refine bind_step (scVerify_rep ha) ?_
  refine bind_step (scVerify_rep hb) ?_
  refine bind_step (mul512V_ok ha.words hb.words) ?_
  refine bind_step (reduce512V_ok (mul512_spec ha.words hb.words).1) ?_
  exact bind_step (scVerify_rep (C44_mul ha hb)) rfl

theorem scAddV_ok {a b : Sc4} {v w : Fn} (ha : a.Rep v) (hb : b.Rep w) : scAddV a b = some (Sc4.add a b) := by
  obtain ⟨hw, hv⟩ := addRaw_spec ha.words hb.words
  have h1 := ha.lt
  have h2 := hb.lt
  have hs : (addRaw a b).1.nat + (addRaw a b).2 * 2 ^ 256 < 2 * n := by omega
  have f1 := (reduce_final hw hs).1
  refine bind_step (scVerify_rep ha) ?_
  refine bind_step (scVerify_rep hb) ?_
  refine bind_step (check_true ?_) ?_
  · rw [Bool.or_eq_true, decide_eq_true_eq, decide_eq_true_eq]
    omega
  refine bind_step (scReduceV_ok hw hs) ?_
  exact bind_step (scVerify_rep (C44_add ha hb).1) rfl

theorem scIsZeroV_ok {a : Sc4} {v : Fn} (ha : a.Rep v) : scIsZeroV a = some a.isZero :=
  bind_step (scVerify_rep ha) rfl

theorem scNegateV_ok {a : Sc4} {v : Fn} (ha : a.Rep v) : scNegateV a = some a.negate := by
  refine bind_step (scIsZeroV_ok ha) ?_
  refine bind_step (scVerify_rep ha) ?_
  exact bind_step (scVerify_rep (C44_negate ha)) rfl

theorem scCondNegateV_ok {a : Sc4} {v : Fn} (ha : a.Rep v) (flag : Bool) :
    scCondNegateV a flag = some (a.condNegate flag) := by
  refine bind_step (scIsZeroV_ok ha) ?_
  refine bind_step (scVerify_rep ha) ?_
  exact bind_step (scVerify_rep (C44_cond_negate ha flag).1) rfl

theorem halfTop_lt {a : Sc4} (ha : a.Words) : halfTop a < 2 ^ 64 := by
  obtain ⟨a0, a1, a2, a3⟩ := ha
  have hx : ∀ x y : ℕ, x < 2 ^ 64 → (x >>> 1) ||| u64 (y <<< 63) < 2 ^ 64 := by
    intro x y hx
    refine Nat.or_lt_two_pow ?_ (Nat.mod_lt _ (by decide))
    rw [Nat.shiftRight_eq_div_pow]
    omega
  have e0 := hx a.d0 a.d1 a0
  have e1 := hx a.d1 a.d2 a1
  have e2 := hx a.d2 a.d3 a2
  unfold halfTop
  extract_lets mask t0 t1 t2 t3 t4 t5 t6 t7 t8 t9
  have m0 : u64 (scNH0 + 1) &&& mask < 2 ^ 64 := lt_of_le_of_lt Nat.and_le_left (by decide)
  have m1 : scNH1 &&& mask < 2 ^ 64 := lt_of_le_of_lt Nat.and_le_left (by decide)
  have m2 : scNH2 &&& mask < 2 ^ 64 := lt_of_le_of_lt Nat.and_le_left (by decide)
  have m3 : scNH3 &&& mask < 2 ^ 63 := lt_of_le_of_lt Nat.and_le_left (by decide)
  have h3 : a.d3 >>> 1 < 2 ^ 63 := by rw [Nat.shiftRight_eq_div_pow]; omega
  have sh : ∀ t, u128Rshift t 64 = t / 2 ^ 64 := fun t => Nat.shiftRight_eq_div_pow _ _
  have ac : ∀ t x, u128AccumU64 t x ≤ t + x := fun t x => Nat.mod_le _ _
  have l1 : t1 < 2 ^ 65 := by have := ac t0 (u64 (scNH0 + 1) &&& mask); change _ ≤ _ at this; change u128AccumU64 _ _ < _; have : t0 < 2 ^ 64 := e0; omega
  have l2 : t2 ≤ 1 := by change u128Rshift t1 64 ≤ 1; rw [sh]; omega
  have l3 : t3 ≤ t2 + (a.d1 >>> 1 ||| u64 (a.d2 <<< 63)) := ac _ _
  have l4 : t4 ≤ t3 + (scNH1 &&& mask) := ac _ _
  have l5 : t5 ≤ 1 := by change u128Rshift t4 64 ≤ 1; rw [sh]; omega
  have l6 : t6 ≤ t5 + (a.d2 >>> 1 ||| u64 (a.d3 <<< 63)) := ac _ _
  have l7 : t7 ≤ t6 + (scNH2 &&& mask) := ac _ _
  have l8 : t8 ≤ 1 := by change u128Rshift t7 64 ≤ 1; rw [sh]; omega
  have l9 : t9 ≤ t8 + a.d3 >>> 1 := ac _ _
  have l10 := ac t9 (scNH3 &&& mask)
  omega

theorem scHalfV_ok {a : Sc4} {v : Fn} (ha : a.Rep v) : scHalfV a = some a.half := by
  refine bind_step (scVerify_rep ha) ?_
  refine bind_step (check_true (decide_eq_true ?_)) ?_
  · have := halfTop_lt ha.words
    unfold u128Rshift u128ToU64 u64
    rw [Nat.shiftRight_eq_div_pow, Nat.div_eq_of_lt this]
    rfl
  exact bind_step (scVerify_rep (C44_half ha)) rfl

theorem carry4_top {a : Sc4} (ha : a.Words) {x0 x1 x2 x3 : ℕ} (h0 : x0 < 2 ^ 64) (h1 : x1 < 2 ^ 64)
    (h2 : x2 < 2 ^ 64) (h3 : x3 < 2 ^ 64)
    (hs : a.nat + (x0 + x1 * 2 ^ 64 + x2 * 2 ^ 128 + x3 * 2 ^ 192) < 2 ^ 256) :
    ((((((a.d0 + x0) % 2 ^ 128 / 2 ^ 64 + a.d1) % 2 ^ 128 + x1) % 2 ^ 128 / 2 ^ 64 + a.d2) % 2 ^ 128 + x2) %
      2 ^ 128 / 2 ^ 64 + a.d3) % 2 ^ 128 + x3 < 2 ^ 64 := by
  obtain ⟨a0, a1, a2, a3⟩ := ha
  obtain ⟨t0, e0⟩ : ∃ t, t = a.d0 + x0 := ⟨_, rfl⟩
  rw [← e0, Nat.mod_eq_of_lt (show t0 < 2 ^ 128 by omega)]
  obtain ⟨s1, f1⟩ : ∃ t, t = t0 / 2 ^ 64 + a.d1 := ⟨_, rfl⟩
  rw [← f1, Nat.mod_eq_of_lt (show s1 < 2 ^ 128 by omega)]
  obtain ⟨t1, e1⟩ : ∃ t, t = s1 + x1 := ⟨_, rfl⟩
  rw [← e1, Nat.mod_eq_of_lt (show t1 < 2 ^ 128 by omega)]
  obtain ⟨s2, f2⟩ : ∃ t, t = t1 / 2 ^ 64 + a.d2 := ⟨_, rfl⟩
  rw [← f2, Nat.mod_eq_of_lt (show s2 < 2 ^ 128 by omega)]
  obtain ⟨t2, e2⟩ : ∃ t, t = s2 + x2 := ⟨_, rfl⟩
  rw [← e2, Nat.mod_eq_of_lt (show t2 < 2 ^ 128 by omega)]
  unfold Sc4.nat at hs
  omega

/-- The last accumulator of four words with four addends. -/
def top4 (r : Sc4) (x0 x1 x2 x3 : ℕ) : ℕ :=
  u128AccumU64 (u128AccumU64 (u128Rshift (u128AccumU64 (u128AccumU64 (u128Rshift (u128AccumU64 (u128AccumU64
    (u128Rshift (u128AccumU64 r.d0 x0) 64) r.d1) x1) 64) r.d2) x2) 64) r.d3) x3

theorem top4_lt {r : Sc4} (hr : r.Words) {x0 x1 x2 x3 : ℕ} (h0 : x0 < 2 ^ 64) (h1 : x1 < 2 ^ 64)
    (h2 : x2 < 2 ^ 64) (h3 : x3 < 2 ^ 64)
    (hs : r.nat + (x0 + x1 * 2 ^ 64 + x2 * 2 ^ 128 + x3 * 2 ^ 192) < 2 ^ 256) : top4 r x0 x1 x2 x3 < 2 ^ 64 := by
  have := carry4_top hr h0 h1 h2 h3 hs
  unfold top4 u128Rshift u128AccumU64
  simp only [Nat.shiftRight_eq_div_pow]
  exact lt_of_le_of_lt (Nat.mod_le _ _) this

/-- One addend of `secp256k1_scalar_cadd_bit`. -/
def addend (bitn k : ℕ) : ℕ := u64 (bit (decide (bitn >>> 6 = k)) <<< (bitn &&& 0x3F))

theorem caddBitTop_eq (r : Sc4) (b : ℕ) (flag : Bool) : caddBitTop r b flag =
    top4 r (addend (b + (((bit flag + 2 ^ 32 - 1) % 2 ^ 32) &&& 0x100)) 0)
      (addend (b + (((bit flag + 2 ^ 32 - 1) % 2 ^ 32) &&& 0x100)) 1)
      (addend (b + (((bit flag + 2 ^ 32 - 1) % 2 ^ 32) &&& 0x100)) 2)
      (addend (b + (((bit flag + 2 ^ 32 - 1) % 2 ^ 32) &&& 0x100)) 3) := by
  unfold caddBitTop top4 addend
  rfl

theorem addend_big {b k : ℕ} (hk : k < 4) : addend (b + 256) k = 0 := by
  unfold addend
  rw [Nat.shiftRight_eq_div_pow, decide_eq_false (show ¬ (b + 256) / 2 ^ 6 = k by omega), Nat.shiftLeft_eq,
    show bit false = 0 from rfl, Nat.zero_mul]
  rfl

theorem addend_eq (b k : ℕ) : addend b k = if b / 2 ^ 6 = k then 2 ^ (b % 2 ^ 6) else 0 := by
  have hpow : 2 ^ (b % 2 ^ 6) < 2 ^ 64 := Nat.pow_lt_pow_right (by decide) (by omega)
  unfold addend u64
  rw [land_3f, Nat.shiftRight_eq_div_pow, Nat.shiftLeft_eq, bit_eq]
  by_cases h : b / 2 ^ 6 = k
  · simp only [h, decide_true, if_true, Nat.one_mul, Nat.mod_eq_of_lt hpow]
  · simp only [h, decide_false, Bool.false_eq_true, if_false, Nat.zero_mul, Nat.zero_mod]

theorem addend_lt (b k : ℕ) : addend b k < 2 ^ 64 := Nat.mod_lt _ (by decide)

theorem addend_sum {b : ℕ} (hb : b < 256) :
    addend b 0 + addend b 1 * 2 ^ 64 + addend b 2 * 2 ^ 128 + addend b 3 * 2 ^ 192 = 2 ^ b := by
  rw [addend_eq, addend_eq, addend_eq, addend_eq]
  have hb' : 2 ^ b = 2 ^ (b % 2 ^ 6) * 2 ^ (64 * (b / 2 ^ 6)) := by
    rw [← pow_add]
    congr 1
    omega
  rw [hb']
  generalize 2 ^ (b % 2 ^ 6) = y
  have : b / 2 ^ 6 = 0 ∨ b / 2 ^ 6 = 1 ∨ b / 2 ^ 6 = 2 ∨ b / 2 ^ 6 = 3 := by omega
  rcases this with h | h | h | h <;> rw [h] <;> simp

theorem add_zeros {m : ℕ} (h : m < 2 ^ 256) : m + (0 + 0 * 2 ^ 64 + 0 * 2 ^ 128 + 0 * 2 ^ 192) < 2 ^ 256 := by
  simp only [Nat.zero_mul, Nat.add_zero]
  exact h

theorem caddBitTop_false {r : Sc4} {b : ℕ} : caddBitTop r b false = top4 r 0 0 0 0 := by
  have h0 : ((bit false + 2 ^ 32 - 1) % 2 ^ 32) &&& 0x100 = 256 := by decide
  have h := caddBitTop_eq r b false
  rw [h0, addend_big (show 0 < 4 by decide), addend_big (show 1 < 4 by decide), addend_big (show 2 < 4 by decide),
    addend_big (show 3 < 4 by decide)] at h
  exact h

theorem caddBitTop_lt_false {r : Sc4} (hr : r.Words) {b : ℕ} : caddBitTop r b false < 2 ^ 64 := by
  have h0 : 0 < 2 ^ 64 := by decide
  rw [caddBitTop_false]
  exact top4_lt hr h0 h0 h0 h0 (add_zeros hr.lt)

theorem caddBitTop_lt_true {r : Sc4} (hr : r.Words) {b : ℕ} (hb : b < 256)
    (hs : r.nat + 2 ^ b < 2 ^ 256) : caddBitTop r b true < 2 ^ 64 := by
  have h0 : ((bit true + 2 ^ 32 - 1) % 2 ^ 32) &&& 0x100 = 0 := by decide
  have h := caddBitTop_eq r b true
  rw [h0, Nat.add_zero] at h
  rw [h]
  rw [← addend_sum hb] at hs
  exact top4_lt hr (addend_lt _ _) (addend_lt _ _) (addend_lt _ _) (addend_lt _ _) hs

theorem caddBitTop_lt {r : Sc4} (hr : r.Words) {b : ℕ} (hb : b < 256) (flag : Bool)
    (hs : flag = true → r.nat + 2 ^ b < 2 ^ 256) : caddBitTop r b flag < 2 ^ 64 := by
  cases flag
  · exact caddBitTop_lt_false hr
  · exact caddBitTop_lt_true hr hb (hs rfl)

theorem scCaddBitV_ok {a : Sc4} {v : Fn} (ha : a.Rep v) {k : ℕ} (hk : k < 256) (flag : Bool)
    (ho : flag = true → v.val + 2 ^ k < n) : scCaddBitV a k flag = some (a.caddBit k flag) := by
  have hn : n < 2 ^ 256 := by unfold n; decide
  refine bind_step (scVerify_rep ha) ?_
  refine bind_step (check_true (decide_eq_true hk)) ?_
  refine bind_step (scVerify_rep (C44_cadd_bit ha hk flag ho)) ?_
  refine bind_step (check_true (decide_eq_true ?_)) rfl
  have := caddBitTop_lt ha.words hk flag (fun h => by rw [ha.val]; have := ho h; omega)
  unfold u128HiU64 u64
  rw [Nat.shiftRight_eq_div_pow, Nat.div_eq_of_lt this]
  rfl

theorem shiftWords_spec {l : U512} (hl : l.Words) {s : ℕ} (h1 : 256 ≤ s) (h2 : s ≤ 512)
    (hb : l.nat / 2 ^ s + 1 < 2 ^ 256) :
    (shiftWords l s).Words ∧ (shiftWords l s).nat = l.nat / 2 ^ s := by
  have h512 := l.lt hl
  have hz : ∀ k, 512 ≤ k → l.nat / 2 ^ k = 0 := fun k hk =>
    Nat.div_eq_of_lt (lt_of_lt_of_le h512 (Nat.pow_le_pow_right (by decide) hk))
  have hs := Nat.div_add_mod s 64
  have hs' : s % 64 < 64 := Nat.mod_lt _ (by decide)
  have p6 : (2 : ℕ) ^ 6 = 64 := rfl
  unfold shiftWords
  simp only [Nat.shiftRight_eq_div_pow s 6, land_3f, p6]
  have d0 : (if s < 512 then l.get (0 + s / 64) >>> (s % 64) |||
      (if s < 448 ∧ s % 64 ≠ 0 then u64 (l.get (1 + s / 64) <<< (64 - s % 64)) else 0)
      else 0) = l.nat / 2 ^ s % 2 ^ 64 := by
    split_ifs with c1 c2
    · have := shift_word (s := s) hl (j := s / 64) (r := s % 64) hs' (by omega)
      rw [if_pos (by omega), hs] at this
      rw [← this, Nat.zero_add, Nat.add_comm 1]
    · have := shift_word (s := s) hl (j := s / 64) (r := s % 64) hs' (by omega)
      rw [if_neg (by omega), hs] at this
      rw [← this, Nat.zero_add]
    · rw [hz _ (by omega), Nat.zero_mod]
  have d1 : (if s < 448 then l.get (1 + s / 64) >>> (s % 64) |||
      (if s < 384 ∧ s % 64 ≠ 0 then u64 (l.get (2 + s / 64) <<< (64 - s % 64)) else 0)
      else 0) = l.nat / 2 ^ s / 2 ^ 64 % 2 ^ 64 := by
    rw [Nat.div_div_eq_div_mul, ← pow_add]
    split_ifs with c1 c2
    · have := shift_word (s := s) hl (j := s / 64 + 1) (r := s % 64) hs' (by omega)
      rw [if_pos (by omega), show 64 * (s / 64 + 1) + s % 64 = s + 64 by omega] at this
      rw [← this, Nat.add_comm 1, Nat.add_comm 2, Nat.add_assoc]
    · have := shift_word (s := s) hl (j := s / 64 + 1) (r := s % 64) hs' (by omega)
      rw [if_neg (by omega), show 64 * (s / 64 + 1) + s % 64 = s + 64 by omega] at this
      rw [← this, Nat.add_comm 1]
    · rw [hz _ (by omega), Nat.zero_mod]
  have d2 : (if s < 384 then l.get (2 + s / 64) >>> (s % 64) |||
      (if s < 320 ∧ s % 64 ≠ 0 then u64 (l.get (3 + s / 64) <<< (64 - s % 64)) else 0)
      else 0) = l.nat / 2 ^ s / 2 ^ 128 % 2 ^ 64 := by
    rw [Nat.div_div_eq_div_mul, ← pow_add]
    split_ifs with c1 c2
    · have := shift_word (s := s) hl (j := s / 64 + 2) (r := s % 64) hs' (by omega)
      rw [if_pos (by omega), show 64 * (s / 64 + 2) + s % 64 = s + 128 by omega] at this
      rw [← this, Nat.add_comm 2, Nat.add_comm 3, Nat.add_assoc]
    · have := shift_word (s := s) hl (j := s / 64 + 2) (r := s % 64) hs' (by omega)
      rw [if_neg (by omega), show 64 * (s / 64 + 2) + s % 64 = s + 128 by omega] at this
      rw [← this, Nat.add_comm 2]
    · rw [hz _ (by omega), Nat.zero_mod]
  have d3 : (if s < 320 then l.get (3 + s / 64) >>> (s % 64) else 0) =
      l.nat / 2 ^ s / 2 ^ 192 % 2 ^ 64 := by
    rw [Nat.div_div_eq_div_mul, ← pow_add]
    split_ifs with c1
    · have := shift_word (s := s) hl (j := s / 64 + 3) (r := s % 64) hs' (by omega)
      rw [if_neg (by omega), show 64 * (s / 64 + 3) + s % 64 = s + 192 by omega, Nat.or_zero] at this
      rw [← this, Nat.add_comm 3]
    · rw [hz _ (by omega), Nat.zero_mod]
  rw [d0, d1, d2, d3]
  obtain ⟨z, ez⟩ : ∃ z, z = l.nat / 2 ^ s := ⟨_, rfl⟩
  rw [← ez] at hb ⊢
  have hw : (Sc4.mk (z % 2 ^ 64) (z / 2 ^ 64 % 2 ^ 64) (z / 2 ^ 128 % 2 ^ 64)
      (z / 2 ^ 192 % 2 ^ 64)).Words := by
    constructor <;> exact Nat.mod_lt _ (by decide)
  have hn : (Sc4.mk (z % 2 ^ 64) (z / 2 ^ 64 % 2 ^ 64) (z / 2 ^ 128 % 2 ^ 64)
      (z / 2 ^ 192 % 2 ^ 64)).nat = z := by
    unfold nat
    dsimp only
    clear d0 d1 d2 d3 hz  h512 ez hs hs'
    omega
  exact ⟨hw, hn⟩

theorem scMulShiftVarV_ok {a b : Sc4} {v w : Fn} (ha : a.Rep v) (hb : b.Rep w) {shift : ℕ} (h1 : 256 ≤ shift)
    (h2 : shift ≤ 512) : scMulShiftVarV a b shift = some (Sc4.mulShiftVar a b shift) := by
  obtain ⟨hw, he⟩ := mul512_spec ha.words hb.words
  rw [ha.val, hb.val] at he
  have hle : v.val * w.val ≤ (n - 1) * (n - 1) :=
    Nat.mul_le_mul (by have := ZMod.val_lt v; omega) (by have := ZMod.val_lt w; omega)
  have hq : v.val * w.val / 2 ^ shift + 1 < n := by
    have h3 : v.val * w.val / 2 ^ shift ≤ (n - 1) * (n - 1) / 2 ^ 256 :=
      (Nat.div_le_div_left (Nat.pow_le_pow_right (by decide) h1) (by positivity)).trans
        (Nat.div_le_div_right hle)
    have h4 : (n - 1) * (n - 1) / 2 ^ 256 + 1 < n := by unfold n; decide +kernel
    omega
  have hn : n < 2 ^ 256 := by unfold n; decide
  obtain ⟨s1, s2⟩ := shiftWords_spec hw h1 h2 (by rw [he]; omega)
  rw [he] at s2
  have hr : (shiftWords (mul512 a b) shift).Rep ((v.val * w.val / 2 ^ shift : ℕ) : Fn) :=
    ⟨s1, by rw [s2, ZMod.val_natCast, Nat.mod_eq_of_lt (by omega)]⟩
  refine bind_step (scVerify_rep ha) ?_
  refine bind_step (scVerify_rep hb) ?_
  refine bind_step (check_true (decide_eq_true h1)) ?_
  refine bind_step (mul512V_ok ha.words hb.words) ?_
  refine bind_step (scCaddBitV_ok hr (by decide) _ ?_) ?_
  · intro _
    rw [ZMod.val_natCast, Nat.mod_eq_of_lt (by omega)]
    omega
  exact bind_step (scVerify_rep (C44_mul_shift ha hb h1 h2).2.2.2) rfl

end Secp.Model.Verify
