import Verif.Model.Scratch
import Mathlib.Tactic.Ring
import Mathlib.Tactic.Linarith
import Mathlib.Data.Nat.Basic

/-! # `size_t` arithmetic of the scratch space -/

namespace Secp
open Model

/-- `n` rounded up to a multiple of `al`, without wrap-around. -/
def roundUp (al n : ℕ) : ℕ := (n + (al - 1)) / al * al

theorem szMod_cases [Target] : szMod = 2 ^ 32 ∨ szMod = 2 ^ 64 := by
  unfold szMod
  split_ifs
  · exact Or.inl rfl
  · exact Or.inr rfl

theorem szMod_big [Target] : 2 ^ 32 ≤ szMod := by
  rcases szMod_cases with h | h <;> rw [h]
  exact Nat.pow_le_pow_right (by omega) (by omega)

theorem szMod_pos [Target] : 0 < szMod := lt_of_lt_of_le (by decide) szMod_big

theorem szSub_eq [Target] {a b : ℕ} (h : b ≤ a) (ha : a < szMod) : szSub a b = a - b := by
  unfold szSub
  have : a + (szMod - b) = (a - b) + szMod := by omega
  rw [this, Nat.add_mod_right, Nat.mod_eq_of_lt (by omega)]

theorem roundUp_dvd (al n : ℕ) : al ∣ roundUp al n := Dvd.intro_left _ rfl

theorem le_roundUp {al n : ℕ} (h : 0 < al) : n ≤ roundUp al n := by
  unfold roundUp
  have := Nat.div_add_mod (n + (al - 1)) al
  have := Nat.mod_lt (n + (al - 1)) h
  rw [mul_comm]
  omega

theorem roundUp_lt {al n : ℕ} (h : 0 < al) : roundUp al n ≤ n + (al - 1) := by
  unfold roundUp
  exact Nat.div_mul_le_self _ _

theorem roundUp_le_of_dvd {al n m : ℕ} (h : 0 < al) (hd : al ∣ m) (hn : n ≤ m) : roundUp al n ≤ m := by
  obtain ⟨q, rfl⟩ := hd
  unfold roundUp
  rw [mul_comm al q]
  apply Nat.mul_le_mul_right
  rw [← Nat.lt_succ_iff, Nat.div_lt_iff_lt_mul h]
  rw [Nat.succ_mul, mul_comm q]
  omega

theorem roundUp_zero {al : ℕ} (_h : 0 < al) : roundUp al 0 = 0 := by
  unfold roundUp
  rw [Nat.div_eq_of_lt (by omega), zero_mul]

variable [Target]

theorem roundToAlign_eq {al n : ℕ} (h : al ∣ szMod) (hn : n < szMod) :
    roundToAlign al n = roundUp al n % szMod := by
  have ha : 0 < al := Nat.pos_of_dvd_of_pos h szMod_pos
  unfold roundToAlign szCeilDiv
  rw [Nat.mod_mul_mod]
  rcases Nat.eq_zero_or_pos n with rfl | h0
  · rw [roundUp_zero ha, Nat.zero_mod]
    have e : szSub 0 1 = szMod - 1 := by
      unfold szSub
      have := szMod_pos
      rw [Nat.zero_add, Nat.mod_eq_of_lt (by omega)]
    rw [e]
    obtain ⟨q, hq⟩ := h
    have hq0 : 0 < q := by
      rcases Nat.eq_zero_or_pos q with rfl | h
      · rw [mul_zero] at hq; exact absurd hq szMod_pos.ne'
      · exact h
    have : 1 + (szMod - 1) / al = q := by
      obtain ⟨q', rfl⟩ : ∃ q', q = q' + 1 := ⟨q - 1, by omega⟩
      have : szMod - 1 = al * q' + (al - 1) := by rw [hq, mul_add]; omega
      rw [this, Nat.mul_add_div ha, Nat.div_eq_of_lt (by omega)]
      omega
    rw [this, mul_comm, ← hq, Nat.mod_self]
  · rw [szSub_eq h0 hn]
    have : 1 + (n - 1) / al = (n + (al - 1)) / al := by
      have : n + (al - 1) = (n - 1) + al := by omega
      rw [this, Nat.add_div_right _ ha]
      omega
    rw [this]
    rfl

theorem roundUp_le {al n : ℕ} (h : al ∣ szMod) (hn : n < szMod) : roundUp al n ≤ szMod :=
  roundUp_le_of_dvd (Nat.pos_of_dvd_of_pos h szMod_pos) h hn.le

/-- The rounding wraps around exactly when there is no multiple of the alignment left. -/
theorem roundToAlign_cases {al n : ℕ} (h : al ∣ szMod) (hn : n < szMod) :
    (roundUp al n < szMod ∧ roundToAlign al n = roundUp al n) ∨
      (roundUp al n = szMod ∧ roundToAlign al n < n) := by
  have h1 := roundToAlign_eq h hn
  rcases (roundUp_le h hn).lt_or_eq with h2 | h2
  · left; exact ⟨h2, by rw [h1, Nat.mod_eq_of_lt h2]⟩
  · right
    refine ⟨h2, ?_⟩
    rw [h1, h2, Nat.mod_self]
    rcases Nat.eq_zero_or_pos n with rfl | h0
    · rw [roundUp_zero (Nat.pos_of_dvd_of_pos h szMod_pos)] at h2
      exact absurd h2.symm szMod_pos.ne'
    · exact h0

/-- A usable scratch object. -/
structure ScratchOk (s : Scratch) : Prop where
  magic : s.magic = scratchMagic
  le : s.allocSize ≤ s.maxSize
  lt : s.maxSize < szMod

theorem ScratchOk.not_bad {s : Scratch} (h : ScratchOk s) : scratchBad s = false := by
  unfold scratchBad
  rw [h.magic]
  decide

/-- `secp256k1_scratch_alloc` succeeds exactly when the rounded size fits. -/
theorem scratchAlloc_eq {al : ℕ} (ha : al ∣ szMod) {s : Scratch} (h : ScratchOk s) {size : ℕ}
    (hs : size < szMod) :
    scratchAlloc al s size =
      if roundUp al size ≤ s.maxSize - s.allocSize then
        (some s.allocSize, { s with allocSize := s.allocSize + roundUp al size }, 0)
      else (none, s, 0) := by
  unfold scratchAlloc
  simp only
  have h3 := h.lt
  have h4 := h.le
  rw [szSub_eq h.le h.lt, h.not_bad]
  rcases roundToAlign_cases ha hs with ⟨h1, h2⟩ | ⟨h1, h2⟩
  · rw [h2, if_neg (by have := le_roundUp (n := size) (Nat.pos_of_dvd_of_pos ha szMod_pos); omega),
      if_neg (by decide)]
    by_cases hc : roundUp al size ≤ s.maxSize - s.allocSize
    · rw [if_pos hc, if_neg (by omega), Nat.mod_eq_of_lt (by omega)]
    · rw [if_neg hc, if_pos (by omega)]
  · rw [if_pos h2, if_neg (by omega)]

theorem scratchMaxAllocation_eq {al : ℕ} (ha : al ∣ szMod) {s : Scratch} (h : ScratchOk s) {k : ℕ}
    (hk : k < szMod) :
    scratchMaxAllocation al s k = (s.maxSize - s.allocSize - k * (al - 1), 0) := by
  unfold scratchMaxAllocation
  have h3 := h.lt
  have h4 := h.le
  have ha0 : 0 < al := Nat.pos_of_dvd_of_pos ha szMod_pos
  rw [szSub_eq h.le h.lt, h.not_bad, if_neg (by decide)]
  by_cases hc : al > 1 ∧ k > (szMod - 1) / (al - 1)
  · rw [if_pos hc]
    obtain ⟨h1, h2⟩ := hc
    have : szMod - 1 < k * (al - 1) := by
      rw [gt_iff_lt, Nat.div_lt_iff_lt_mul (by omega)] at h2
      exact h2
    rw [Nat.sub_eq_zero_of_le (by omega)]
  · rw [if_neg hc]
    have hlt : k * (al - 1) < szMod := by
      by_cases h1 : al > 1
      · have h2 : ¬ k > (szMod - 1) / (al - 1) := fun h => hc ⟨h1, h⟩
        rw [gt_iff_lt, Nat.div_lt_iff_lt_mul (by omega)] at h2
        have := szMod_pos
        omega
      · have : al - 1 = 0 := by omega
        rw [this, mul_zero]; exact szMod_pos
    rw [Nat.mod_eq_of_lt hlt]
    by_cases h5 : s.maxSize - s.allocSize ≤ k * (al - 1)
    · rw [if_pos h5, Nat.sub_eq_zero_of_le h5]
    · rw [if_neg h5, szSub_eq (by omega) (by omega)]

end Secp
