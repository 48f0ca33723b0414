import Verif.Model.EcmultMulti
import Verif.Proof.Wnaf
import Mathlib.Algebra.BigOperators.Group.Finset.Basic
import Mathlib.Algebra.BigOperators.Intervals

/-! # The fixed-size wNAF of Pippenger's algorithm -/

namespace Secp
open Model Finset

theorem getD_set_int (A : List ℤ) (i j : ℕ) (v : ℤ) :
    (A.set i v).getD j 0 = if i = j ∧ i < A.length then v else A.getD j 0 := by
  rw [List.getD_eq_getElem?_getD, List.getD_eq_getElem?_getD, List.getElem?_set]
  by_cases h : i = j
  · subst h
    by_cases h2 : i < A.length
    · simp [h2]
    · simp [h2]
  · simp [h]

theorem wnafSize_mul {w : ℕ} (hw : 1 ≤ w) : 128 ≤ w * wnafSize w ∧ w * (wnafSize w - 1) ≤ 127 := by
  unfold wnafSize wnafBits
  have h1 := Nat.div_add_mod (128 - 1) w
  have h2 := Nat.mod_lt (128 - 1) hw
  rw [Nat.add_sub_cancel_left, mul_add, mul_one]
  omega

/-- The digit read from the scalar is the `pos`-th one in base `2^w`. -/
theorem wnafFixedBits_eq {s : Fn} {w pos : ℕ} (hs : s.val < 2 ^ 128) (hw : 1 ≤ w)
    (hp : pos < wnafSize w) : wnafFixedBits s w pos = s.val / 2 ^ (w * pos) % 2 ^ w := by
  unfold wnafFixedBits scGetBits
  simp only [mul_comm pos w]
  split_ifs with h
  · obtain ⟨h1, h2⟩ := wnafSize_mul hw
    have e : w * wnafSize w = w * (wnafSize w - 1) + w := by
      obtain ⟨k, hk⟩ : ∃ k, wnafSize w = k + 1 := ⟨wnafSize w - 1, by omega⟩
      rw [hk, Nat.add_sub_cancel]; ring
    rw [mul_comm (wnafSize w - 1) w, h]
    have hlt : s.val / 2 ^ (w * (wnafSize w - 1)) < 2 ^ (128 - w * (wnafSize w - 1)) := by
      rw [Nat.div_lt_iff_lt_mul (by positivity), ← pow_add]
      rwa [Nat.sub_add_cancel (by omega)]
    have hle : (2 : ℕ) ^ (128 - w * (wnafSize w - 1)) ≤ 2 ^ w := Nat.pow_le_pow_right (by norm_num) (by omega)
    unfold wnafBits
    rw [Nat.mod_eq_of_lt hlt, Nat.mod_eq_of_lt (hlt.trans_le hle)]
  · rfl

/-- The value of the first `k` digits. -/
def wval (w : ℕ) (A : List ℤ) (k : ℕ) : ℤ := ∑ j ∈ range k, A.getD j 0 * 2 ^ (w * j)

theorem wval_succ (w : ℕ) (A : List ℤ) (k : ℕ) :
    wval w A (k + 1) = wval w A k + A.getD k 0 * 2 ^ (w * k) := sum_range_succ _ _

theorem wval_congr {w : ℕ} {A B : List ℤ} {k : ℕ} (h : ∀ j < k, A.getD j 0 = B.getD j 0) :
    wval w A k = wval w B k :=
  sum_congr rfl fun j hj => by rw [h j (mem_range.1 hj)]

/-- A digit `0`, or odd and below `2^w` in absolute value. -/
def DigitF (w : ℕ) (d : ℤ) : Prop := d = 0 ∨ (d % 2 = 1 ∧ |d| < 2 ^ w)

structure WInv (w : ℕ) (s skew : ℕ) (k : ℕ) (A : List ℤ) : Prop where
  val : wval w A k = (s % 2 ^ (w * k) : ℕ) + skew
  odd : A.getD (k - 1) 0 % 2 = 1
  pos : 0 < A.getD (k - 1) 0
  lt : A.getD (k - 1) 0 < 2 ^ w
  ok : ∀ j < k - 1, DigitF w (A.getD j 0)

theorem mod_pow_succ (s w k : ℕ) :
    ((s % 2 ^ (w * (k + 1)) : ℕ) : ℤ) = (s % 2 ^ (w * k) : ℕ) + (s / 2 ^ (w * k) % 2 ^ w : ℕ) * 2 ^ (w * k) := by
  rw [mul_add, mul_one, pow_add, Nat.mod_mul]
  push_cast
  ring

theorem pow_even {w : ℕ} (hw : 1 ≤ w) : ∃ m : ℤ, (2 : ℤ) ^ w = 2 * m ∧ 1 ≤ m :=
  ⟨2 ^ (w - 1), by rw [← pow_succ', Nat.sub_add_cancel hw], one_le_pow₀ (by norm_num)⟩

/-- The first part of the loop body. -/
theorem wnafA {w s skew q : ℕ} {A : List ℤ} (hw : 1 ≤ w) (hl : q + 1 < A.length) (h : WInv w s skew (q + 1) A) :
    ∃ B, (let val := s / 2 ^ (w * (q + 1)) % 2 ^ w
      if val % 2 = 0 then
        (A.set q (A.getD q 0 - 2 ^ w)).set (q + 1) ((val : ℤ) + 1)
      else A.set (q + 1) (val : ℤ)) = B ∧ B.length = A.length ∧
      wval w B (q + 2) = (s % 2 ^ (w * (q + 2)) : ℕ) + skew ∧
      (B.getD (q + 1) 0 % 2 = 1 ∧ 0 < B.getD (q + 1) 0 ∧ B.getD (q + 1) 0 < 2 ^ w) ∧
      (B.getD q 0 % 2 = 1 ∧ |B.getD q 0| < 2 ^ w) ∧
      (∀ j, j ≠ q → j ≠ q + 1 → B.getD j 0 = A.getD j 0) := by
  refine ⟨_, rfl, ?_⟩
  obtain ⟨m, hm, hm1⟩ := pow_even hw
  have hval := h.val
  have h1 := h.odd
  have h2 := h.pos
  have h3 := h.lt
  simp only [Nat.add_sub_cancel] at h1 h2 h3
  have hlt : s / 2 ^ (w * (q + 1)) % 2 ^ w < 2 ^ w := Nat.mod_lt _ (by positivity)
  have hmod := mod_pow_succ s w (q + 1)
  have hpow : (2 : ℤ) ^ (w * (q + 1)) = 2 ^ w * 2 ^ (w * q) := by rw [mul_add, mul_one, pow_add]; ring
  generalize hv : s / 2 ^ (w * (q + 1)) % 2 ^ w = v at *
  have hltz : (v : ℤ) < 2 * m := by rw [← hm]; exact_mod_cast hlt
  rw [wval_succ] at hval
  simp only
  split_ifs with he
  · have g1 : ((A.set q (A.getD q 0 - 2 ^ w)).set (q + 1) ((v : ℤ) + 1)).getD (q + 1) 0 = (v : ℤ) + 1 := by
      rw [getD_set_int, if_pos ⟨rfl, by simpa using hl⟩]
    have g0 : ((A.set q (A.getD q 0 - 2 ^ w)).set (q + 1) ((v : ℤ) + 1)).getD q 0 = A.getD q 0 - 2 ^ w := by
      rw [getD_set_int, if_neg (by omega), getD_set_int, if_pos ⟨rfl, by omega⟩]
    have g2 : ∀ j, j ≠ q → j ≠ q + 1 →
        ((A.set q (A.getD q 0 - 2 ^ w)).set (q + 1) ((v : ℤ) + 1)).getD j 0 = A.getD j 0 := by
      intro j h1 h2
      rw [getD_set_int, if_neg (by omega), getD_set_int, if_neg (by omega)]
    refine ⟨by simp, ?_, ?_, ?_, g2⟩
    · rw [wval_succ, wval_succ, g1, g0, wval_congr (B := A) fun j hj => g2 j (by omega) (by omega), hmod,
        ← sub_eq_zero]
      rw [hpow]
      rw [← sub_eq_zero] at hval
      linear_combination hval
    · rw [g1, hm]; omega
    · rw [g0, hm]; rw [hm] at h3
      constructor
      · omega
      · rw [abs_lt]; omega
  · have g1 : (A.set (q + 1) (v : ℤ)).getD (q + 1) 0 = (v : ℤ) := by
      rw [getD_set_int, if_pos ⟨rfl, by simpa using hl⟩]
    have g2 : ∀ j, j ≠ q + 1 → (A.set (q + 1) (v : ℤ)).getD j 0 = A.getD j 0 := by
      intro j h2
      rw [getD_set_int, if_neg (by omega)]
    refine ⟨by simp, ?_, ?_, ?_, fun j _ h => g2 j h⟩
    · rw [wval_succ, wval_succ, g1, g2 q (by omega), wval_congr (B := A) fun j hj => g2 j (by omega), hmod,
        hval]
      ring
    · rw [g1, hm]; omega
    · rw [g2 q (by omega), hm]; rw [hm] at h3
      constructor
      · omega
      · rw [abs_lt]; omega

theorem wnafFixedStep_inv {w q skew : ℕ} {s : Fn} (hs : s.val < 2 ^ 128) (hw : 1 ≤ w)
    (hq : q + 1 < wnafSize w) {A : List ℤ} (hl : A.length = wnafSize w) (h : WInv w s.val skew (q + 1) A) :
    (wnafFixedStep s w (q + 1) A).length = wnafSize w ∧
      WInv w s.val skew (q + 2) (wnafFixedStep s w (q + 1) A) ∧
      ∀ j ≥ q + 2, (wnafFixedStep s w (q + 1) A).getD j 0 = A.getD j 0 := by
  obtain ⟨B, hB, b1, b2, ⟨b3, b4, b5⟩, ⟨b6, b7⟩, b8⟩ := wnafA hw (by omega) h
  unfold wnafFixedStep
  rw [wnafFixedBits_eq hs hw hq]
  simp only [Nat.add_sub_cancel] at hB ⊢
  rw [hB]
  have hok := h.ok
  simp only [Nat.add_sub_cancel] at hok
  obtain ⟨m, hm, hm1⟩ := pow_even hw
  split_ifs with h1 h2
  · -- digit 1 after a negative digit
    obtain ⟨h1a, h1b⟩ := h1
    obtain ⟨r, rfl⟩ : ∃ r, q = r + 1 := ⟨q - 1, by omega⟩
    have e : r + 1 + 1 - 2 = r := by omega
    rw [e] at h1b ⊢
    have hr := hok r (by omega)
    rw [← b8 r (by omega) (by omega)] at hr
    have hneg : B.getD r 0 < 0 := by omega
    set C := (B.set r (B.getD r 0 + 2 ^ w)).set (r + 1) 0 with hC
    have g1 : C.getD (r + 1) 0 = 0 := by rw [hC, getD_set_int, if_pos ⟨rfl, by simp; omega⟩]
    have g0 : C.getD r 0 = B.getD r 0 + 2 ^ w := by
      rw [hC, getD_set_int, if_neg (by omega), getD_set_int, if_pos ⟨rfl, by omega⟩]
    have g2 : ∀ j, j ≠ r → j ≠ r + 1 → C.getD j 0 = B.getD j 0 := by
      intro j h1 h2
      rw [hC, getD_set_int, if_neg (by omega), getD_set_int, if_neg (by omega)]
    have hpow : (2 : ℤ) ^ (w * (r + 1)) = 2 ^ w * 2 ^ (w * r) := by rw [mul_add, mul_one, pow_add]; ring
    rcases hr with hr | ⟨hr1, hr2⟩
    · omega
    rw [abs_lt] at hr2
    refine ⟨by rw [hC]; simp; omega, ⟨?_, ?_, ?_, ?_, ?_⟩, ?_⟩
    · rw [← b2]
      rw [wval_succ, wval_succ, wval_succ, wval_succ _ _ (r + 1 + 1), wval_succ _ _ (r + 1), wval_succ _ _ r,
        wval_congr (B := B) fun j hj => g2 j (by omega) (by omega), g1, g0,
        g2 (r + 1 + 1) (by omega) (by omega), h2, hpow]
      ring
    · rw [show r + 1 + 2 - 1 = r + 1 + 1 by omega, g2 _ (by omega) (by omega)]; exact b3
    · rw [show r + 1 + 2 - 1 = r + 1 + 1 by omega, g2 _ (by omega) (by omega)]; exact b4
    · rw [show r + 1 + 2 - 1 = r + 1 + 1 by omega, g2 _ (by omega) (by omega)]; exact b5
    · intro j hj
      rcases Nat.lt_trichotomy j r with hj' | rfl | hj'
      · rw [g2 j (by omega) (by omega), b8 j (by omega) (by omega)]
        exact hok j (by omega)
      · right
        rw [g0]
        rw [hm] at hr2 ⊢
        exact ⟨by omega, by rw [abs_lt]; omega⟩
      · left
        have : j = r + 1 := by omega
        rw [this, g1]
    · intro j hj
      rw [g2 j (by omega) (by omega), b8 j (by omega) (by omega)]
  · -- digit -1 after a positive digit
    obtain ⟨h1a, h1b⟩ := h1
    obtain ⟨r, rfl⟩ : ∃ r, q = r + 1 := ⟨q - 1, by omega⟩
    have e : r + 1 + 1 - 2 = r := by omega
    rw [e] at h1b ⊢
    have hr := hok r (by omega)
    rw [← b8 r (by omega) (by omega)] at hr
    have hneg : B.getD r 0 > 0 ∧ B.getD (r + 1) 0 = -1 := by omega
    set C := (B.set r (B.getD r 0 - 2 ^ w)).set (r + 1) 0 with hC
    have g1 : C.getD (r + 1) 0 = 0 := by rw [hC, getD_set_int, if_pos ⟨rfl, by simp; omega⟩]
    have g0 : C.getD r 0 = B.getD r 0 - 2 ^ w := by
      rw [hC, getD_set_int, if_neg (by omega), getD_set_int, if_pos ⟨rfl, by omega⟩]
    have g2 : ∀ j, j ≠ r → j ≠ r + 1 → C.getD j 0 = B.getD j 0 := by
      intro j h1 h2
      rw [hC, getD_set_int, if_neg (by omega), getD_set_int, if_neg (by omega)]
    have hpow : (2 : ℤ) ^ (w * (r + 1)) = 2 ^ w * 2 ^ (w * r) := by rw [mul_add, mul_one, pow_add]; ring
    rcases hr with hr | ⟨hr1, hr2⟩
    · omega
    rw [abs_lt] at hr2
    refine ⟨by rw [hC]; simp; omega, ⟨?_, ?_, ?_, ?_, ?_⟩, ?_⟩
    · rw [← b2]
      rw [wval_succ, wval_succ, wval_succ, wval_succ _ _ (r + 1 + 1), wval_succ _ _ (r + 1), wval_succ _ _ r,
        wval_congr (B := B) fun j hj => g2 j (by omega) (by omega), g1, g0,
        g2 (r + 1 + 1) (by omega) (by omega), hneg.2, hpow]
      ring
    · rw [show r + 1 + 2 - 1 = r + 1 + 1 by omega, g2 _ (by omega) (by omega)]; exact b3
    · rw [show r + 1 + 2 - 1 = r + 1 + 1 by omega, g2 _ (by omega) (by omega)]; exact b4
    · rw [show r + 1 + 2 - 1 = r + 1 + 1 by omega, g2 _ (by omega) (by omega)]; exact b5
    · intro j hj
      rcases Nat.lt_trichotomy j r with hj' | rfl | hj'
      · rw [g2 j (by omega) (by omega), b8 j (by omega) (by omega)]
        exact hok j (by omega)
      · right
        rw [g0]
        rw [hm] at hr2 ⊢
        exact ⟨by omega, by rw [abs_lt]; omega⟩
      · left
        have : j = r + 1 := by omega
        rw [this, g1]
    · intro j hj
      rw [g2 j (by omega) (by omega), b8 j (by omega) (by omega)]
  · refine ⟨by omega, ⟨b2, b3, b4, b5, ?_⟩, fun j hj => b8 j (by omega) (by omega)⟩
    intro j hj
    rcases Nat.lt_or_ge j q with hj' | hj'
    · rw [b8 j (by omega) (by omega)]
      exact hok j (by omega)
    · have : j = q := by omega
      rw [this]
      exact Or.inr ⟨b6, b7⟩

theorem wnafFixedLoop_inv {w skew : ℕ} {s : Fn} (hs : s.val < 2 ^ 128) (hw : 1 ≤ w) :
    ∀ (k q : ℕ) (_ : q + 1 + k ≤ wnafSize w) {A : List ℤ} (_ : A.length = wnafSize w)
      (_ : WInv w s.val skew (q + 1) A),
    (wnafFixedLoop s w k (q + 1) A).length = wnafSize w ∧
      WInv w s.val skew (q + 1 + k) (wnafFixedLoop s w k (q + 1) A) ∧
      ∀ j ≥ q + 1 + k, (wnafFixedLoop s w k (q + 1) A).getD j 0 = A.getD j 0
  | 0, _, _, _, hl, h => ⟨hl, h, fun _ _ => rfl⟩
  | k + 1, q, hq, A, hl, h => by
    obtain ⟨h1, h2, h3⟩ := wnafFixedStep_inv hs hw (by omega) hl h
    obtain ⟨h4, h5, h6⟩ := wnafFixedLoop_inv hs hw k (q + 1) (by omega) h1 h2
    have e : q + 1 + 1 + k = q + 1 + (k + 1) := by omega
    rw [e] at h5 h6
    exact ⟨h4, h5, fun j hj => (h6 j hj).trans (h3 j (by omega))⟩

theorem wnafFixedTop_spec {w : ℕ} {s : Fn} (hs : s.val < 2 ^ 128) (hw : 1 ≤ w) :
    ∀ (k : ℕ) (_ : k < wnafSize w) {A : List ℤ} (_ : A.length = wnafSize w)
      (_ : s.val < 2 ^ (w * (k + 1))) (_ : ∀ j > k, A.getD j 0 = 0),
    let t := wnafFixedTop s w k A
    t.1.length = wnafSize w ∧ t.2 ≤ k ∧ s.val < 2 ^ (w * (t.2 + 1)) ∧ (∀ j > t.2, t.1.getD j 0 = 0) ∧
      t.1.getD 0 0 = A.getD 0 0
  | 0, _, _, hl, h, hz => ⟨hl, le_rfl, h, hz, rfl⟩
  | k + 1, hk, A, hl, h, hz => by
    simp only [wnafFixedTop]
    split_ifs with hb
    · exact ⟨hl, le_rfl, h, hz, rfl⟩
    · have hb' : wnafFixedBits s w (k + 1) = 0 := by omega
      rw [wnafFixedBits_eq hs hw hk] at hb'
      have hlt : s.val < 2 ^ (w * (k + 1)) := by
        have h1 : s.val / 2 ^ (w * (k + 1)) < 2 ^ w := by
          rw [Nat.div_lt_iff_lt_mul (by positivity), ← pow_add]
          have : w + w * (k + 1) = w * (k + 1 + 1) := by ring
          rwa [this]
        rw [Nat.mod_eq_of_lt h1] at hb'
        exact (Nat.div_eq_zero_iff.1 hb').resolve_left (by positivity)
      obtain ⟨h1, h2, h3, h4, h5⟩ := wnafFixedTop_spec hs hw k (by omega)
        (A := A.set (k + 1) 0) (by simpa using hl) hlt (by
          intro j hj
          rw [getD_set_int]
          split_ifs with hc
          · rfl
          · by_cases hj2 : j = k + 1
            · subst hj2
              omega
            · exact hz j (by omega))
      refine ⟨h1, by omega, h3, h4, ?_⟩
      rw [h5, getD_set_int, if_neg (by omega)]

/-- `secp256k1_wnaf_fixed`: the digits are 0 or odd and below `2^w` in absolute value, and with the skew
they represent the scalar. -/
theorem wnafFixed_spec {w : ℕ} {s : Fn} {old : List ℤ} (hs : s.val < 2 ^ 128) (hw : 1 ≤ w)
    (hl : old.length = wnafSize w) :
    (wnafFixed old s w).1.length = wnafSize w ∧ (wnafFixed old s w).2 ≤ 1 ∧
      (∀ j, DigitF w ((wnafFixed old s w).1.getD j 0)) ∧
      wval w (wnafFixed old s w).1 (wnafSize w) - (wnafFixed old s w).2 = s.val := by
  unfold wnafFixed
  have hsz : 1 ≤ wnafSize w := Nat.le_add_right _ _
  by_cases h0 : scIsZero s = true
  · simp only [if_pos h0]
    have g : ∀ j, (List.replicate (wnafSize w) (0 : ℤ)).getD j 0 = 0 := by
      intro j
      rw [List.getD_eq_getElem?_getD, List.getElem?_replicate]
      split_ifs <;> rfl
    refine ⟨by simp, by simp, fun j => Or.inl (g j), ?_⟩
    have : s = 0 := by simpa [scIsZero] using h0
    rw [this]
    unfold wval
    rw [sum_eq_zero fun j _ => by rw [g j, zero_mul]]
    simp
  · simp only [if_neg h0]
    set skew : ℕ := if s.val % 2 = 0 then 1 else 0 with hsk
    have hsk1 : skew ≤ 1 := by rw [hsk]; split_ifs <;> omega
    obtain ⟨m, hm, hm1⟩ := pow_even hw
    obtain ⟨hb1, hb2⟩ := wnafSize_mul hw
    set A := old.set 0 (((scGetBits s 0 w + skew : ℕ)) : ℤ) with hA
    have a0 : A.getD 0 0 = ((s.val % 2 ^ w + skew : ℕ) : ℤ) := by
      rw [hA, getD_set_int, if_pos ⟨rfl, by omega⟩]
      simp [scGetBits]
    obtain ⟨t1, t2, t3, t4, t5⟩ := wnafFixedTop_spec hs hw (wnafSize w - 1) (by omega) (A := A)
      (by rw [hA]; simpa using hl)
      (by
        rw [Nat.sub_add_cancel hsz]
        exact hs.trans_le (Nat.pow_le_pow_right (by norm_num) hb1))
      (by
        intro j hj
        rw [List.getD_eq_getElem?_getD, List.getElem?_eq_none (by rw [hA]; simp; omega)]
        rfl)
    set t := wnafFixedTop s w (wnafSize w - 1) A with ht
    have hmn : s.val % 2 ^ w % 2 = s.val % 2 := Nat.mod_mod_of_dvd _ (dvd_pow_self 2 (by omega))
    have hlt : s.val % 2 ^ w < 2 ^ w := Nat.mod_lt _ (by positivity)
    have hpar : (s.val % 2 ^ w + skew) % 2 = 1 := by
      rw [hsk]
      split_ifs with he <;> omega
    have inv1 : WInv w s.val skew (0 + 1) t.1 := by
      refine ⟨?_, ?_, ?_, ?_, fun j hj => by omega⟩
      · unfold wval
        rw [zero_add, sum_range_one, t5, a0]
        simp
      · show t.1.getD 0 0 % 2 = 1
        rw [t5, a0]; omega
      · show 0 < t.1.getD 0 0
        rw [t5, a0]; omega
      · show t.1.getD 0 0 < 2 ^ w
        rw [t5, a0]
        have h2 : (2 : ℕ) ^ w = 2 * 2 ^ (w - 1) := by rw [← pow_succ', Nat.sub_add_cancel hw]
        have : s.val % 2 ^ w + skew < 2 ^ w := by omega
        exact_mod_cast this
    obtain ⟨l1, l2, l3⟩ := wnafFixedLoop_inv hs hw t.2 0 (by omega) t1 inv1
    rw [Nat.zero_add, Nat.add_comm 1 t.2] at l2
    rw [Nat.zero_add, Nat.add_comm 1 t.2] at l3
    rw [Nat.zero_add] at l1
    have hzero : ∀ j > t.2, (wnafFixedLoop s w t.2 1 t.1).getD j 0 = 0 := fun j hj => by
      rw [l3 j hj, t4 j hj]
    refine ⟨l1, hsk1, ?_, ?_⟩
    · intro j
      rcases Nat.lt_trichotomy j t.2 with hj | rfl | hj
      · exact l2.ok j (by omega)
      · refine Or.inr ⟨l2.odd, ?_⟩
        have := l2.pos
        rw [Nat.add_sub_cancel] at this
        rw [abs_of_pos this]
        exact l2.lt
      · exact Or.inl (hzero j hj)
    · have hv := l2.val
      rw [Nat.mod_eq_of_lt t3] at hv
      have : wval w (wnafFixedLoop s w t.2 1 t.1) (wnafSize w) =
          wval w (wnafFixedLoop s w t.2 1 t.1) (t.2 + 1) := by
        unfold wval
        symm
        refine sum_subset (range_mono (by omega)) fun j _ hj => ?_
        rw [mem_range, not_lt] at hj
        rw [hzero j (by omega), zero_mul]
      rw [this, hv]
      ring

end Secp
