import Mathlib.Algebra.BigOperators.Group.Finset.Basic
import Mathlib.Algebra.BigOperators.Ring.Finset
import Mathlib.Tactic.LinearCombination
import Mathlib.Tactic.Linarith
import Verif.Proof.Endo

/-! # The wNAF recoding represents the scalar -/

namespace Secp
open Model Finset

/-- The number represented by the first `B` digits. -/
def digitSum (l : List Int) (B : ℕ) : ℤ := ∑ j ∈ range B, l.getD j 0 * 2 ^ j

theorem digitSum_set {l : List Int} {i : ℕ} {v : ℤ} {B : ℕ} (hi : i < l.length) (hB : i < B)
    (h0 : l.getD i 0 = 0) : digitSum (l.set i v) B = digitSum l B + v * 2 ^ i := by
  unfold digitSum
  have : ∀ j ∈ range B, (l.set i v).getD j 0 * 2 ^ j =
      l.getD j 0 * 2 ^ j + if j = i then v * 2 ^ i else 0 := by
    intro j _
    by_cases hj : j = i
    · subst hj
      rw [if_pos rfl, h0, zero_mul, zero_add]
      simp [List.getD_eq_getElem?_getD, List.getElem?_set_self hi]
    · rw [if_neg hj, add_zero]
      simp [List.getD_eq_getElem?_getD, List.getElem?_set_ne (Ne.symm hj)]
  rw [Finset.sum_congr rfl this, Finset.sum_add_distrib, Finset.sum_ite_eq' (range B) i]
  simp [hB]

/-- A digit of a window of `w` bits: 0, or odd and below `2^(w-1)` in absolute value. -/
def DigitOk (w : ℕ) (d : ℤ) : Prop := d = 0 ∨ (d % 2 = 1 ∧ -(2 ^ (w - 1)) < d ∧ d < 2 ^ (w - 1))

structure WnafInv (v : ℕ) (sign : ℤ) (len w : ℕ) (st : WnafState) : Prop where
  length : st.wnaf.length = len
  bit_le : st.bit ≤ len
  carry_le : st.carry ≤ 1
  bits_le : st.bits ≤ st.bit
  zero : ∀ j, st.bits ≤ j → st.wnaf.getD j 0 = 0
  digit : ∀ j, DigitOk w (st.wnaf.getD j 0)
  sum : digitSum st.wnaf len = sign * ((v % 2 ^ st.bit : ℕ) - st.carry * 2 ^ st.bit)
  top : st.carry = 1 → 0 < st.bit ∧ v / 2 ^ (st.bit - 1) % 2 = 1

theorem getD_set {l : List Int} {i j : ℕ} {v : ℤ} (hi : i < l.length) :
    (l.set i v).getD j 0 = if j = i then v else l.getD j 0 := by
  split
  · rename_i h; subst h
    simp [List.getD_eq_getElem?_getD, List.getElem?_set_self hi]
  · rename_i h
    simp [List.getD_eq_getElem?_getD, List.getElem?_set_ne (Ne.symm h)]

theorem odd_of_ne {x c : ℕ} (hc : c ≤ 1) (h : x % 2 ≠ c) : (x + c) % 2 = 1 := by omega

theorem wnafLoop_inv {s : Fn} {sign : ℤ} (hs : sign = 1 ∨ sign = -1) {len w : ℕ} (hw : 2 ≤ w) :
    ∀ (m : ℕ) (st : WnafState), len - st.bit = m → WnafInv s.val sign len w st →
      WnafInv s.val sign len w (wnafLoop s sign len w st) ∧
        (wnafLoop s sign len w st).bit = len := by
  intro m
  induction m using Nat.strong_induction_on with
  | _ m ih =>
  intro st hm inv
  rw [wnafLoop]
  by_cases hb : st.bit < len
  swap
  · rw [dif_neg hb]
    exact ⟨inv, by have := inv.bit_le; omega⟩
  rw [dif_pos hb]
  have hbit : scGetBits s st.bit 1 = s.val / 2 ^ st.bit % 2 := by simp [scGetBits]
  by_cases hc : scGetBits s st.bit 1 = st.carry
  · rw [if_pos hc]
    apply ih (len - (st.bit + 1)) (by omega) _ rfl
    rw [hbit] at hc
    refine ⟨inv.length, hb, inv.carry_le, by have := inv.bits_le; exact Nat.le_succ_of_le this,
      inv.zero, inv.digit, ?_, ?_⟩
    · simp only
      rw [inv.sum, Nat.mod_pow_succ, hc]
      push_cast
      ring
    · intro h
      simp only at h ⊢
      exact ⟨Nat.succ_pos _, by rw [Nat.add_sub_cancel, hc, h]⟩
  · rw [if_neg hc]
    rw [hbit] at hc
    have hnow : ¬ min w (len - st.bit) = 0 := by omega
    simp only [hnow, dite_false]
    generalize hnw : min w (len - st.bit) = now at hnow ⊢
    apply ih (len - (st.bit + now)) (by omega) _ rfl
    have hv : scGetBits s st.bit now = s.val / 2 ^ st.bit % 2 ^ now := rfl
    rw [hv]
    generalize hx : s.val / 2 ^ st.bit = x at *
    have hlt : x % 2 ^ now < 2 ^ now := Nat.mod_lt _ (Nat.two_pow_pos _)
    have hodd : (x % 2 ^ now + st.carry) % 2 = 1 := by
      apply odd_of_ne inv.carry_le
      rwa [Nat.mod_mod_of_dvd _ (dvd_pow_self 2 hnow)]
    have hmod : s.val % 2 ^ (st.bit + now) = s.val % 2 ^ st.bit + 2 ^ st.bit * (x % 2 ^ now) := by
      rw [pow_add, Nat.mod_mul, hx]
    have hmod2 : x / 2 ^ (now - 1) % 2 = s.val / 2 ^ (st.bit + now - 1) % 2 := by
      rw [← hx, Nat.div_div_eq_div_mul, ← pow_add]; congr 3; omega
    generalize hy : x % 2 ^ now = y at *
    have h2w : 2 ^ w = 2 * 2 ^ (w - 1) := by rw [← pow_succ']; congr 1; omega
    have hword : y + st.carry < 2 ^ now + 1 := by have := inv.carry_le; omega
    have hnoweven : 2 ^ now % 2 = 0 := Nat.mod_eq_zero_of_dvd (dvd_pow_self 2 hnow)
    have hword' : y + st.carry < 2 ^ now := by omega
    have hnowle : 2 ^ now ≤ 2 ^ w := Nat.pow_le_pow_right (by norm_num) (by omega)
    have hpos : 0 < 2 ^ (w - 1) := Nat.two_pow_pos _
    have hweven : 2 ^ (w - 1) % 2 = 0 := Nat.mod_eq_zero_of_dvd (dvd_pow_self 2 (by omega))
    have hlt2 : (y + st.carry) / 2 ^ (w - 1) < 2 := by
      rw [Nat.div_lt_iff_lt_mul hpos]; omega
    have hcar : (y + st.carry) / 2 ^ (w - 1) % 2 = (y + st.carry) / 2 ^ (w - 1) :=
      Nat.mod_eq_of_lt hlt2
    rw [hcar]
    have hz0 := inv.zero st.bit inv.bits_le
    have hset : ∀ v j, (st.wnaf.set st.bit v).getD j 0 = if j = st.bit then v else st.wnaf.getD j 0 :=
      fun v j => getD_set (by rw [inv.length]; exact hb)
    have hcases : ((y + st.carry) / 2 ^ (w - 1) = 0 ∧ y + st.carry < 2 ^ (w - 1)) ∨
        ((y + st.carry) / 2 ^ (w - 1) = 1 ∧ 2 ^ (w - 1) < y + st.carry) := by
      rcases Nat.lt_or_ge (y + st.carry) (2 ^ (w - 1)) with h | h
      · left; exact ⟨Nat.div_eq_of_lt h, h⟩
      · right
        refine ⟨?_, by omega⟩
        have : 1 ≤ (y + st.carry) / 2 ^ (w - 1) := (Nat.one_le_div_iff hpos).2 h
        omega
    generalize hcc : (y + st.carry) / 2 ^ (w - 1) = cc at *
    have hwi : ((2 : ℤ) ^ w) = ((2 ^ w : ℕ) : ℤ) := by push_cast; rfl
    have hwi' : ((2 : ℤ) ^ (w - 1)) = ((2 ^ (w - 1) : ℕ) : ℤ) := by push_cast; rfl
    refine ⟨by simp [inv.length], ?_, by simp only; omega, ?_, ?_, ?_, ?_, ?_⟩
    · simp only; omega
    · simp only; omega
    · intro j hj
      simp only at hj ⊢
      rw [hset, if_neg (by omega)]
      exact inv.zero j (by have := inv.bits_le; omega)
    · intro j
      simp only
      rw [hset]
      split
      · right
        rw [hwi, hwi']
        rcases hs with rfl | rfl <;> rcases hcases with ⟨e, h⟩ | ⟨e, h⟩ <;> rw [e] <;>
          refine ⟨?_, ?_, ?_⟩ <;> push_cast <;> omega
      · exact inv.digit j
    · simp only
      rw [digitSum_set (by rw [inv.length]; exact hb) hb hz0, inv.sum, hmod]
      have hcard : cc = 0 ∨ (cc = 1 ∧ now = w) := by
        rcases hcases with ⟨e, _⟩ | ⟨e, h⟩
        · exact .inl e
        · right
          refine ⟨e, ?_⟩
          by_contra hne
          have : now ≤ w - 1 := by omega
          have := Nat.pow_le_pow_right (n := 2) (by norm_num) this
          omega
      rcases hcard with rfl | ⟨rfl, rfl⟩
      · push_cast; ring
      · push_cast; rw [pow_add]; ring
    · intro h
      simp only at h ⊢
      refine ⟨by omega, ?_⟩
      rw [h] at hcases
      have hgt : 2 ^ (w - 1) < y + st.carry := by omega
      have hnw' : now = w := by
        by_contra hne
        have : now ≤ w - 1 := by omega
        have := Nat.pow_le_pow_right (n := 2) (by norm_num) this
        omega
      subst hnw'
      rw [← hmod2]
      have hyge : 2 ^ (now - 1) ≤ y := by have := inv.carry_le; omega
      have h3 : x / 2 ^ (now - 1) % 2 = x % (2 ^ (now - 1) * 2) / 2 ^ (now - 1) := by
        rw [Nat.mod_mul_right_div_self]
      rw [h3, mul_comm, ← h2w, hy]
      have hd : y / 2 ^ (now - 1) < 2 := by rw [Nat.div_lt_iff_lt_mul hpos]; omega
      have hd' : 1 ≤ y / 2 ^ (now - 1) := (Nat.one_le_div_iff hpos).2 hyge
      omega

theorem getD_replicate (m j : ℕ) : (List.replicate m (0 : ℤ)).getD j 0 = 0 := by
  rw [List.getD_eq_getElem?_getD, List.getElem?_replicate]
  split <;> rfl

/-- `secp256k1_ecmult_wnaf` represents its argument: for every scalar of at most 128 bits in
absolute value, the digits are admissible table arguments, the digits from the returned count on
are 0, and the digits sum to the scalar. -/
theorem ecmultWnaf_spec {a : Fn} (ha : Small a) {w : ℕ} (hw : 2 ≤ w) :
    (∀ j, DigitOk w ((ecmultWnaf 129 a w).1.getD j 0)) ∧ (ecmultWnaf 129 a w).2 ≤ 129 ∧
      (∀ j, (ecmultWnaf 129 a w).2 ≤ j → (ecmultWnaf 129 a w).1.getD j 0 = 0) ∧
      ∀ B, (ecmultWnaf 129 a w).2 ≤ B → ((digitSum (ecmultWnaf 129 a w).1 B : ℤ) : Fn) = a := by
  have hn : 2 ^ 255 + 2 ^ 128 < n := by decide +kernel
  have hn2 : n < 2 ^ 256 := by decide +kernel
  have hval := ZMod.val_lt a
  -- the absolute value
  have key : ∃ (s : Fn) (sign : ℤ), (sign = 1 ∨ sign = -1) ∧ s.val < 2 ^ 128 ∧
      (sign : Fn) * s = a ∧ ecmultWnaf 129 a w =
        ((wnafLoop s sign 129 w ⟨List.replicate 129 0, 0, 0, 0⟩).wnaf,
          (wnafLoop s sign 129 w ⟨List.replicate 129 0, 0, 0, 0⟩).bits) := by
    have htop : scGetBits a 255 1 ≠ 0 ↔ 2 ^ 255 ≤ a.val := by
      have h1 : a.val / 2 ^ 255 < 2 := by rw [Nat.div_lt_iff_lt_mul (by norm_num)]; omega
      rw [scGetBits, pow_one, Nat.mod_eq_of_lt h1, Ne, Nat.div_eq_zero_iff]
      simp
    by_cases h : 2 ^ 255 ≤ a.val
    · refine ⟨-a, -1, .inr rfl, ?_, by push_cast; ring, ?_⟩
      · rcases ha with h' | h'
        · have : (2 : ℕ) ^ 128 < 2 ^ 255 := by norm_num
          omega
        · exact h'
      · simp only [ecmultWnaf, if_pos (htop.2 h)]
    · refine ⟨a, 1, .inl rfl, ?_, by push_cast; ring, ?_⟩
      · rcases ha with h' | h'
        · exact h'
        · by_cases h0 : a = 0
          · rw [h0]; simp
          · rw [ZMod.neg_val, if_neg h0] at h'
            omega
      · simp only [ecmultWnaf, if_neg (fun hh => h (htop.1 hh))]
  obtain ⟨s, sign, hs, hsv, rfl, he⟩ := key
  rw [he]
  have inv0 : WnafInv s.val sign 129 w ⟨List.replicate 129 0, 0, 0, 0⟩ := by
    have hz : ∀ j, (List.replicate 129 (0 : ℤ)).getD j 0 = 0 := fun j => getD_replicate 129 j
    generalize hr : List.replicate 129 (0 : ℤ) = rr at hz
    have hl : rr.length = 129 := by rw [← hr, List.length_replicate]
    refine ⟨hl, by simp, by simp, by simp, fun j _ => hz j, fun j => .inl (hz j), ?_, by simp⟩
    simp only [digitSum]
    rw [Finset.sum_eq_zero (fun j _ => by rw [hz, zero_mul])]
    simp [Nat.mod_one]
  obtain ⟨inv, hbit⟩ := wnafLoop_inv hs hw (129 - 0) _ rfl inv0
  generalize wnafLoop s sign 129 w ⟨List.replicate 129 0, 0, 0, 0⟩ = st at inv hbit
  have hbits : st.bits ≤ 129 := hbit ▸ inv.bits_le
  refine ⟨inv.digit, hbits, inv.zero, ?_⟩
  intro B hB
  have hcar : st.carry = 0 := by
    have h1 := inv.carry_le
    by_contra h
    obtain ⟨_, h2⟩ := inv.top (by omega)
    rw [hbit] at h2
    have : s.val / 2 ^ (129 - 1) = 0 := Nat.div_eq_of_lt hsv
    rw [this] at h2
    omega
  have hsum := inv.sum
  rw [hbit, hcar, Nat.mod_eq_of_lt (lt_trans hsv (by norm_num))] at hsum
  have hB' : digitSum st.wnaf B = digitSum st.wnaf 129 := by
    have e : ∀ C, st.bits ≤ C → digitSum st.wnaf C = digitSum st.wnaf st.bits := by
      intro C hC
      unfold digitSum
      symm
      apply Finset.sum_subset (Finset.range_subset_range.2 hC)
      intro j _ hj
      rw [inv.zero j (by simpa using hj), zero_mul]
    rw [e B hB, e 129 hbits]
  rw [hB', hsum]
  push_cast
  rw [sub_zero, ZMod.natCast_val, ZMod.cast_id', id]

end Secp
