import Verif.Model.VerifyEcmult
import Verif.Proof.Verify
import Verif.Proof.EcmultConst
import Verif.Proof.Keys

/-!
# The checks of a `VERIFY` build hold in the scalar code of the multiplications
-/

namespace Secp.Model.Verify
open Secp FeOps
open Secp.Spec (Bytes beNat)

theorem memcmpVar_neg : ∀ {a b : Bytes} {k : ℕ}, a.length = k → b.length = k → beNat a < beNat b →
    memcmpVar a b k < 0
  | [], [], 0, _, _, h => by simp [beNat] at h
  | x :: a, y :: b, k + 1, ha, hb, h => by
    have ha : a.length = k := by simpa using ha
    have hb : b.length = k := by simpa using hb
    rw [beNat_cons, beNat_cons, ha, hb] at h
    have l1 := beNat_lt a
    have l2 := beNat_lt b
    rw [ha] at l1
    rw [hb] at l2
    change (if ((x.toNat : ℤ) - (y.toNat : ℤ)) ≠ 0 then ((x.toNat : ℤ) - (y.toNat : ℤ)) else memcmpVar a b k) < 0
    by_cases hd : ((x.toNat : ℤ) - (y.toNat : ℤ)) ≠ 0
    · rw [if_pos hd]
      by_contra hc
      have : y.toNat + 1 ≤ x.toNat := by omega
      have := Nat.mul_le_mul_right (256 ^ k) this
      rw [Nat.add_mul] at this
      omega
    · rw [if_neg hd]
      refine memcmpVar_neg ha hb ?_
      have : x.toNat = y.toNat := by omega
      rw [this] at h
      omega

/-- At most `B - 1` in absolute value. -/
def Below (B : ℕ) (a : Fn) : Prop := a.val < B ∨ (-a).val < B

theorem below_of_int {B : ℕ} (hB : B < n) {z : ℤ} (h1 : -(B : ℤ) < z) (h2 : z < B) : Below B ((z : ℤ) : Fn) := by
  rcases le_or_gt 0 z with h | h
  · left
    obtain ⟨k, rfl⟩ := Int.eq_ofNat_of_zero_le h
    have : k < B := by exact_mod_cast h2
    rw [Int.cast_natCast, ZMod.val_natCast_of_lt (by omega)]
    exact this
  · right
    obtain ⟨k, hk⟩ := Int.eq_ofNat_of_zero_le (a := -z) (by omega)
    have h3 : -((z : ℤ) : Fn) = ((k : ℕ) : Fn) := by
      rw [← Int.cast_neg, hk, Int.cast_natCast]
    have : k < B := by omega
    rw [h3, ZMod.val_natCast_of_lt (by omega)]
    exact this

theorem withinBound_ok {r : Fn} {bound : Bytes} (hl : bound.length = 32) (h : Below (beNat bound) r) :
    withinBound r bound = true := by
  unfold withinBound
  rw [Bool.or_eq_true, decide_eq_true_eq, decide_eq_true_eq]
  rcases h with h | h
  · exact .inl (memcmpVar_neg (scGetB32_length _) hl (by rwa [beNat_scGetB32]))
  · exact .inr (memcmpVar_neg (scGetB32_length _) hl (by rwa [beNat_scGetB32]))

/-- The bounds of scalar_impl.h:292-301 hold. -/
theorem splitLambda_bounds (k : Fn) : Below 0xa2a8918ca85bafe22016d0b917e4dd77 (scSplitLambda k).1 ∧
    Below 0x8a65287bd47179fb2be08846cea267ed (scSplitLambda k).2 := by
  have hk : k.val < n := ZMod.val_lt k
  have hkk : k = ((k.val : ℕ) : Fn) := by rw [ZMod.natCast_val, ZMod.cast_id', id]
  have hg1 : (scConst splitG1).val = splitG1 := ZMod.val_natCast_of_lt (by decide +kernel)
  have hg2 : (scConst splitG2).val = splitG2 := ZMod.val_natCast_of_lt (by decide +kernel)
  have b1 := round_eq (k.val * splitG1) 383
  have b2 := round_eq (k.val * splitG2) 383
  have e1 : scMulShift k (scConst splitG1) 384 =
      ((k.val * splitG1 / 2 ^ (383 + 1) + k.val * splitG1 / 2 ^ 383 % 2 : ℕ) : Fn) := by
    rw [scMulShift, hg1]
  have e2 : scMulShift k (scConst splitG2) 384 =
      ((k.val * splitG2 / 2 ^ (383 + 1) + k.val * splitG2 / 2 ^ 383 % 2 : ℕ) : Fn) := by
    rw [scMulShift, hg2]
  simp only [scSplitLambda, e1, e2]
  generalize k.val * splitG1 / 2 ^ (383 + 1) + k.val * splitG1 / 2 ^ 383 % 2 = c1 at b1 ⊢
  generalize k.val * splitG2 / 2 ^ (383 + 1) + k.val * splitG2 / 2 ^ 383 % 2 = c2 at b2 ⊢
  rw [hkk]
  generalize k.val = v at *
  have l1 : (scConst minusB1) * scConst constLambda = ((0x3086d221a7d46bcde86c90e49284eb15 : ℕ) : Fn) := by
    rw [scConst, scConst, ← Nat.cast_mul]
    exact fn_natCast_eq (by decide +kernel)
  have l2 : (scConst minusB2) * scConst constLambda =
      ((0x0114ca50f7a8e2f3f657c1108d9d44cfd8 : ℕ) : Fn) := by
    rw [scConst, scConst, ← Nat.cast_mul]
    exact fn_natCast_eq (by decide +kernel)
  have l3 : scConst minusB2 = -((0x3086d221a7d46bcde86c90e49284eb15 : ℕ) : Fn) := by
    rw [eq_neg_iff_add_eq_zero, scConst, ← Nat.cast_add, ← cast_n]
    exact fn_natCast_eq (by decide +kernel)
  have hn : n = 0xFFFFFFFFFFFFFFFFFFFFFFFFFFFFFFFEBAAEDCE6AF48A03BBFD25E8CD0364141 := by decide +kernel
  rw [hn] at hk
  unfold splitG1 at b1
  unfold splitG2 at b2
  constructor
  · have : -(((c1 : Fn) * scConst minusB1 + (c2 : Fn) * scConst minusB2) * scConst constLambda) +
        (v : Fn) = (((v : ℤ) - c1 * 0x3086d221a7d46bcde86c90e49284eb15 -
          c2 * 0x0114ca50f7a8e2f3f657c1108d9d44cfd8 : ℤ) : Fn) := by
      push_cast at l1 l2 ⊢
      linear_combination -(c1 : Fn) * l1 - (c2 : Fn) * l2
    rw [this]
    apply below_of_int (by decide +kernel) <;> omega
  · have : (c1 : Fn) * scConst minusB1 + (c2 : Fn) * scConst minusB2 =
        (((c1 : ℤ) * 0xE4437ED6010E88286F547FA90ABFE4C3 -
          c2 * 0x3086d221a7d46bcde86c90e49284eb15 : ℤ) : Fn) := by
      rw [l3, scConst, minusB1]
      push_cast
      ring
    rw [this]
    apply below_of_int (by decide +kernel) <;> omega

theorem splitLambdaV_ok (k : Fn) : splitLambdaV k = some (scSplitLambda k) := by
  obtain ⟨h1, h2⟩ := splitLambda_bounds k
  have c1 : decide (scConst constLambda * (scSplitLambda k).2 + (scSplitLambda k).1 = k) = true := by
    rw [decide_eq_true_eq]
    have := (splitLambda_spec k).1
    rwa [add_comm] at this
  have c2 := withinBound_ok (bound := k1Bound) rfl (by rw [show beNat k1Bound = 0xa2a8918ca85bafe22016d0b917e4dd77 by decide +kernel]; exact h1)
  have c3 := withinBound_ok (bound := k2Bound) rfl (by rw [show beNat k2Bound = 0x8a65287bd47179fb2be08846cea267ed by decide +kernel]; exact h2)
  simp only [splitLambdaV, splitLambdaVerify, c1, c2, c3, check, if_true, Option.bind_eq_bind, Option.bind_some]

theorem getBitsVarV_ok (a : Fn) {offset count : ℕ} (h1 : 0 < count) (h2 : count ≤ 32) (h3 : offset + count ≤ 256) :
    getBitsVarV a offset count = some (scGetBits a offset count) := by
  simp [getBitsVarV, check, h1, h2, h3]

theorem wnafLoopV_eq {s : Fn} {sign : ℤ} {len w : ℕ} (hw : 2 ≤ w) (hw' : w ≤ 31) (hl : len ≤ 256) :
    ∀ (m : ℕ) (st : WnafState), len - st.bit = m → wnafLoopV s sign len w st = some (wnafLoop s sign len w st) := by
  intro m
  induction m using Nat.strong_induction_on with
  | _ m ih =>
  intro st hm
  rw [wnafLoop, wnafLoopV]
  by_cases hb : st.bit < len
  swap
  · rw [dif_neg hb, dif_neg hb]
  rw [dif_pos hb, dif_pos hb]
  by_cases hc : scGetBits s st.bit 1 = st.carry
  · rw [if_pos hc, if_pos hc]
    exact ih (len - (st.bit + 1)) (by omega) _ rfl
  · rw [if_neg hc, if_neg hc]
    have hnow : ¬ min w (len - st.bit) = 0 := by omega
    dsimp only
    rw [getBitsVarV_ok s (by omega) (by omega) (by omega), Option.bind_some, dif_neg hnow, dif_neg hnow]
    exact ih (len - (st.bit + min w (len - st.bit))) (by omega) _ rfl

theorem wnafV_ok {a : Fn} (ha : Small a) {w : ℕ} (hw : 2 ≤ w) (hw' : w ≤ 31) :
    wnafV 129 a w = some (ecmultWnaf 129 a w) := by
  have hn : 2 ^ 255 + 2 ^ 128 < n := by decide +kernel
  have hn2 : n < 2 ^ 256 := by decide +kernel
  have hval := ZMod.val_lt a
  have htop : scGetBits a 255 1 ≠ 0 ↔ 2 ^ 255 ≤ a.val := by
    have h1 : a.val / 2 ^ 255 < 2 := by rw [Nat.div_lt_iff_lt_mul (by norm_num)]; omega
    rw [scGetBits, pow_one, Nat.mod_eq_of_lt h1, Ne, Nat.div_eq_zero_iff]
    simp
  have key : ∀ (s : Fn) (sign : ℤ), (sign = 1 ∨ sign = -1) → s.val < 2 ^ 128 →
      (wnafLoop s sign 129 w ⟨List.replicate 129 0, 0, 0, 0⟩).bit = 129 ∧
        (wnafLoop s sign 129 w ⟨List.replicate 129 0, 0, 0, 0⟩).carry = 0 ∧
        ∀ i, scGetBits s (129 + i) 1 = 0 := by
    intro s sign hs hsv
    have inv0 : WnafInv s.val sign 129 w ⟨List.replicate 129 0, 0, 0, 0⟩ := by
      have hz : ∀ j, (List.replicate 129 (0 : ℤ)).getD j 0 = 0 := fun j => getD_replicate 129 j
      generalize hr : List.replicate 129 (0 : ℤ) = rr at hz
      have hl : rr.length = 129 := by rw [← hr, List.length_replicate]
      refine ⟨hl, by simp, by simp, by simp, fun j _ => hz j, fun j => .inl (hz j), ?_, by simp⟩
      simp only [digitSum]
      rw [Finset.sum_eq_zero (fun j _ => by rw [hz, zero_mul])]
      simp [Nat.mod_one]
    obtain ⟨inv, hbit⟩ := wnafLoop_inv hs hw (129 - 0) _ rfl inv0
    refine ⟨hbit, ?_, fun i => ?_⟩
    · have h1 := inv.carry_le
      by_contra h
      obtain ⟨_, h2⟩ := inv.top (by omega)
      rw [hbit] at h2
      have : s.val / 2 ^ (129 - 1) = 0 := Nat.div_eq_of_lt hsv
      rw [this] at h2
      omega
    · have : s.val < 2 ^ (129 + i) := lt_of_lt_of_le hsv (Nat.pow_le_pow_right (by norm_num) (by omega))
      rw [scGetBits, Nat.div_eq_of_lt this]; rfl
  have fin : ∀ (s : Fn) (sign : ℤ), (sign = 1 ∨ sign = -1) → s.val < 2 ^ 128 →
      ((wnafLoopV s sign 129 w ⟨List.replicate 129 0, 0, 0, 0⟩).bind fun st =>
        (check (st.carry == 0)).bind fun _ =>
          (check ((List.range (256 - st.bit)).all fun i => scGetBits s (st.bit + i) 1 == 0)).bind fun _ =>
            some (st.wnaf, st.bits)) = some ((wnafLoop s sign 129 w ⟨List.replicate 129 0, 0, 0, 0⟩).wnaf,
        (wnafLoop s sign 129 w ⟨List.replicate 129 0, 0, 0, 0⟩).bits) := by
    intro s sign hs hsv
    obtain ⟨k1, k2, k3⟩ := key s sign hs hsv
    rw [wnafLoopV_eq hw hw' (by norm_num) _ _ rfl, Option.bind_some, k1, k2]
    simp only [k3]
    simp [check]
  have pre : ∀ k : Unit → Unit → Option (List ℤ × ℕ), ((check (decide (129 ≤ 256))).bind fun u =>
      (check (decide (2 ≤ w) && decide (w ≤ 31))).bind fun v => k u v) = k () () := by
    intro k; simp [check, hw, hw']
  unfold wnafV ecmultWnaf
  simp only [Option.bind_eq_bind]
  rw [pre]
  by_cases h : 2 ^ 255 ≤ a.val
  · have hc := htop.2 h
    simp only [hc, if_true, ne_eq, not_false_eq_true]
    refine fin _ _ (.inr rfl) ?_
    rcases ha with h' | h'
    · have : (2 : ℕ) ^ 128 < 2 ^ 255 := by norm_num
      omega
    · exact h'
  · have hc : scGetBits a 255 1 = 0 := by by_contra hc; exact h (htop.1 hc)
    simp only [hc, ne_eq, not_true_eq_false, if_false]
    refine fin _ _ (.inl rfl) ?_
    rcases ha with h' | h'
    · exact h'
    · by_cases h0 : a = 0
      · rw [h0]; simp
      · rw [ZMod.neg_val, if_neg h0] at h'
        omega

theorem fits129_ok {v : Fn} (h : v.val < 2 ^ 129) : fits129 v = true := by
  unfold fits129
  rw [List.all_eq_true]
  intro i _
  have : v.val < 2 ^ (129 + i) := lt_of_lt_of_le h (Nat.pow_le_pow_right (by norm_num) (by omega))
  rw [scGetBits, Nat.div_eq_of_lt this]; rfl

theorem straussWnafGV_ok {w : ℕ} (hw : 2 ≤ w) (hw' : w ≤ 31) (ng : Option Fn) :
    straussWnafGV w ng = some (straussWnafG w ng) := by
  cases ng with
  | none => rfl
  | some k =>
    have h1 : Small (scSplit128 k).1 := .inl (by
      simp only [scSplit128]
      rw [ZMod.val_natCast_of_lt (lt_of_lt_of_le (Nat.mod_lt _ (by norm_num)) (by decide +kernel))]
      exact Nat.mod_lt _ (by norm_num))
    have h2 : Small (scSplit128 k).2 := .inl (by
      have hk : k.val < 2 ^ 256 := lt_trans (ZMod.val_lt k) (by decide +kernel)
      have hd : k.val / 2 ^ 128 < 2 ^ 128 := by omega
      simp only [scSplit128]
      rw [ZMod.val_natCast_of_lt (lt_trans hd (by decide +kernel))]
      exact hd)
    simp only [straussWnafGV, straussWnafG, wnafV_ok h1 hw hw', wnafV_ok h2 hw hw', Option.bind_eq_bind, Option.bind_some]

theorem tableVerify_ok {w : ℕ} {d : ℤ} (h : DigitOk w d) (h0 : d ≠ 0) : tableVerify d w = some () := by
  rcases h with h | ⟨h1, h2, h3⟩
  · exact absurd h h0
  · have e1 : -((2 : ℤ) ^ (w - 1) - 1) ≤ d := by omega
    have e2 : d ≤ (2 : ℤ) ^ (w - 1) - 1 := by omega
    unfold tableVerify
    rw [h1, decide_eq_true e1, decide_eq_true e2]
    rfl

end Secp.Model.Verify
