import Verif.Proof.Scalar4x64Ops
import Verif.Proof.Bytes
import Verif.Proof.Hash

/-!
# Helper lemmas: bits, bytes and shifts of scalars on limbs
-/

namespace Secp
open Model
open Spec (beNat beBytes)

theorem shr_word {y r : ℕ} (hr : r < 64) :
    (y % 2 ^ 64) >>> r = y / 2 ^ r % 2 ^ (64 - r) := by
  rw [Nat.shiftRight_eq_div_pow, show (2 : ℕ) ^ 64 = 2 ^ r * 2 ^ (64 - r) by
    rw [← pow_add]; congr 1; omega, Nat.mod_mul_right_div_self]

theorem word_shift {y r : ℕ} (h0 : 0 < r) (hr : r < 64) :
    ((y % 2 ^ 64) >>> r) ||| u64 ((y / 2 ^ 64 % 2 ^ 64) <<< (64 - r)) = y / 2 ^ r % 2 ^ 64 := by
  have e64 : (2 : ℕ) ^ 64 = 2 ^ (64 - r) * 2 ^ r := by rw [← pow_add]; congr 1; omega
  have e1 : u64 ((y / 2 ^ 64 % 2 ^ 64) <<< (64 - r)) = (y / 2 ^ 64 % 2 ^ r) <<< (64 - r) := by
    unfold u64
    rw [Nat.shiftLeft_eq, Nat.shiftLeft_eq]
    conv_lhs => rw [show (y / 2 ^ 64 % 2 ^ 64 * 2 ^ (64 - r)) % 2 ^ 64 =
      (y / 2 ^ 64 % 2 ^ 64 * 2 ^ (64 - r)) % (2 ^ r * 2 ^ (64 - r)) by rw [e64, Nat.mul_comm (2 ^ r)]]
    rw [Nat.mul_mod_mul_right, Nat.mod_mod_of_dvd _ (pow_dvd_pow 2 (by omega))]
  have hp : 0 < 2 ^ (64 - r) := by positivity
  rw [e1, shr_word hr, or_shl (Nat.mod_lt _ hp)]
  conv_rhs => rw [e64, Nat.mod_mul, Nat.div_div_eq_div_mul, Nat.mul_comm (2 ^ r), ← e64]
  rw [Nat.mul_comm (2 ^ (64 - r))]

theorem word_shift' {y r : ℕ} (hr : r < 64) :
    ((y % 2 ^ 64) >>> r) ||| (if r ≠ 0 then u64 ((y / 2 ^ 64 % 2 ^ 64) <<< (64 - r)) else 0) =
      y / 2 ^ r % 2 ^ 64 := by
  by_cases h : r = 0
  · subst h
    simp
  · rw [if_pos h, word_shift (by omega) hr]

theorem ones_shr {c : ℕ} (h0 : 0 < c) (h : c ≤ 32) : 0xFFFFFFFF >>> (32 - c) = 2 ^ c - 1 := by
  interval_cases c <;> rfl

namespace Model.Sc4

theorem limb_eq {a : Sc4} (ha : a.Words) {j : ℕ} (hj : j < 4) :
    a.limb j = a.nat / 2 ^ (64 * j) % 2 ^ 64 := by
  obtain ⟨h0, h1, h2, h3⟩ := ha
  unfold limb nat
  interval_cases j <;> norm_num <;> omega

theorem getBitsLimb32_spec {a : Sc4} (ha : a.Words) {o c : ℕ} (hc : 0 < c) (hc' : c ≤ 32)
    (h : (o + c - 1) / 64 = o / 64) (ho : o + c ≤ 256) :
    a.getBitsLimb32 o c = a.nat / 2 ^ o % 2 ^ c := by
  unfold getBitsLimb32
  rw [ones_shr hc hc', Nat.and_two_pow_sub_one_eq_mod, land_3f, Nat.shiftRight_eq_div_pow o 6,
    limb_eq ha (by omega), shr_word (by omega),
    Nat.mod_mod_of_dvd _ (pow_dvd_pow 2 (by omega)), Nat.div_div_eq_div_mul, ← pow_add]
  congr 3
  omega

theorem getBitsVar_spec {a : Sc4} (ha : a.Words) {o c : ℕ} (hc : 0 < c) (hc' : c ≤ 32)
    (ho : o + c ≤ 256) : a.getBitsVar o c = a.nat / 2 ^ o % 2 ^ c := by
  unfold getBitsVar
  simp only [Nat.shiftRight_eq_div_pow _ 6]
  split_ifs with h
  · exact getBitsLimb32_spec ha hc hc' h ho
  · rw [ones_shr hc hc', Nat.and_two_pow_sub_one_eq_mod, land_3f, limb_eq ha (by omega),
      limb_eq ha (by omega), show 64 * (o / 2 ^ 6 + 1) = 64 * (o / 2 ^ 6) + 64 by omega, pow_add,
      ← Nat.div_div_eq_div_mul, word_shift (by omega) (by omega),
      Nat.mod_mod_of_dvd _ (pow_dvd_pow 2 (by omega)), Nat.div_div_eq_div_mul, ← pow_add]
    congr 3
    omega

/-- Eight bytes in big endian order. -/
theorem readBe64_eq {b : ℕ → ℕ} (hb : ∀ i, b i < 2 ^ 8) (o : ℕ) : readBe64 b o =
    b (o + 7) + b (o + 6) * 2 ^ 8 + b (o + 5) * 2 ^ 16 + b (o + 4) * 2 ^ 24 + b (o + 3) * 2 ^ 32 +
      b (o + 2) * 2 ^ 40 + b (o + 1) * 2 ^ 48 + b o * 2 ^ 56 := by
  have hs : ∀ x y k : ℕ, y < 2 ^ 8 → (x <<< (k + 8)) ||| (y <<< k) = (x * 2 ^ 8 + y) <<< k := by
    intro x y k hy
    have e : x <<< (k + 8) = (x <<< 8) <<< k := by
      rw [Nat.shiftLeft_eq, Nat.shiftLeft_eq, Nat.shiftLeft_eq, pow_add]
      ring
    rw [e, ← Nat.shiftLeft_or_distrib, Nat.or_comm, or_shl hy, Nat.add_comm]
  unfold readBe64
  have h1 := hb (o + 1)
  have h2 := hb (o + 2)
  have h3 := hb (o + 3)
  have h4 := hb (o + 4)
  have h5 := hb (o + 5)
  have h6 := hb (o + 6)
  have h7 := hb (o + 7)
  rw [hs _ _ 48 h1, hs _ _ 40 h2, hs _ _ 32 h3, hs _ _ 24 h4, hs _ _ 16 h5, hs _ _ 8 h6, Nat.or_comm,
    or_shl h7, Nat.add_zero o]
  omega

theorem writeBe64_eq (x : ℕ) : writeBe64 x = beBytes 8 x := by
  have hm : ∀ y, UInt8.ofNat (y % 256) = UInt8.ofNat y := by
    intro y
    apply UInt8.toNat_inj.1
    rw [UInt8.toNat_ofNat', UInt8.toNat_ofNat']
    exact Nat.mod_mod _ _
  unfold writeBe64
  simp only [beBytes, List.nil_append, List.cons_append, hm, Nat.shiftRight_eq_div_pow,
    Nat.div_div_eq_div_mul]

theorem getB32_spec (a : Sc4) (ha : a.Words) : a.getB32 = beBytes 32 a.nat := by
  obtain ⟨h0, h1, h2, h3⟩ := ha
  unfold getB32
  simp only [writeBe64_eq]
  have e : ∀ x y : ℕ, y < 2 ^ 64 → ∀ k, beBytes k x ++ beBytes 8 y = beBytes (k + 8) (x * 2 ^ 64 + y) := by
    intro x y hy k
    rw [Hash.beBytes_add]
    have e1 : (x * 2 ^ 64 + y) / 256 ^ 8 = x := by norm_num; omega
    rw [e1, ← Hash.beBytes_mod 8 (x * 2 ^ 64 + y)]
    have e2 : (x * 2 ^ 64 + y) % 256 ^ 8 = y := by norm_num; omega
    rw [e2]
  rw [e _ _ h2, e _ _ h1, e _ _ h0]
  congr 1
  unfold nat
  omega

end Model.Sc4

theorem Model.U512.get_eq {l : U512} (hl : l.Words) {j : ℕ} (hj : j < 8) :
    l.get j = l.nat / 2 ^ (64 * j) % 2 ^ 64 := by
  obtain ⟨h0, h1, h2, h3, h4, h5, h6, h7⟩ := hl
  unfold get nat
  interval_cases j <;> norm_num <;> omega

theorem Model.U512.lt {l : U512} (hl : l.Words) : l.nat < 2 ^ 512 := by
  obtain ⟨h0, h1, h2, h3, h4, h5, h6, h7⟩ := hl
  unfold nat
  norm_num
  omega

namespace Model.Sc4

/-- One word of the shifted number. -/
theorem shift_word {l : U512} (hl : l.Words) {s j r : ℕ} (hr : r < 64) (hj : j < 8) :
    ((l.get j) >>> r) ||| (if j + 1 < 8 ∧ r ≠ 0 then u64 (l.get (j + 1) <<< (64 - r)) else 0) =
      l.nat / 2 ^ (64 * j + r) % 2 ^ 64 := by
  rw [l.get_eq hl hj, pow_add, ← Nat.div_div_eq_div_mul, ← word_shift' hr]
  congr 1
  by_cases h : j + 1 < 8
  · simp only [h, true_and]
    rw [l.get_eq hl h, show 64 * (j + 1) = 64 * j + 64 by omega, pow_add _ (64 * j) 64,
      ← Nat.div_div_eq_div_mul]
  · simp only [h, false_and, if_false]
    have hj7 : j = 7 := by omega
    subst hj7
    have h512 := l.lt hl
    rw [Nat.div_div_eq_div_mul, ← pow_add, Nat.div_eq_of_lt h512]
    simp [u64]

theorem shift512_spec {l : U512} (hl : l.Words) {s : ℕ} (h1 : 256 ≤ s) (h2 : s ≤ 512)
    (hb : l.nat / 2 ^ s + 1 < 2 ^ 256) :
    (shift512 l s).Words ∧
      (shift512 l s).nat = l.nat / 2 ^ s + l.nat / 2 ^ (s - 1) % 2 := by
  have h512 := l.lt hl
  have hbit : l.get ((s - 1) >>> 6) >>> ((s - 1) &&& 0x3f) &&& 1 = l.nat / 2 ^ (s - 1) % 2 := by
    rw [land_one', land_3f, Nat.shiftRight_eq_div_pow _ 6, l.get_eq hl (by omega),
      shr_word (by omega)]
    have hd : 2 ∣ 2 ^ (64 - (s - 1) % 2 ^ 6) := dvd_pow_self 2 (by omega)
    rw [Nat.mod_mod_of_dvd _ hd, Nat.div_div_eq_div_mul, ← pow_add]
    congr 3
    omega
  have hz : ∀ k, 512 ≤ k → l.nat / 2 ^ k = 0 := fun k hk =>
    Nat.div_eq_of_lt (lt_of_lt_of_le h512 (Nat.pow_le_pow_right (by decide) hk))
  have hs := Nat.div_add_mod s 64
  have hs' : s % 64 < 64 := Nat.mod_lt _ (by decide)
  have p6 : (2 : ℕ) ^ 6 = 64 := rfl
  unfold shift512
  rw [hbit]
  simp only [Nat.shiftRight_eq_div_pow s 6, land_3f, p6]
  have d0 : (if s < 512 then l.get (0 + s / 64) >>> (s % 64) |||
      (if s < 448 ∧ s % 64 ≠ 0 then u64 (l.get (1 + s / 64) <<< (64 - s % 64)) else 0)
      else 0) = l.nat / 2 ^ s % 2 ^ 64 := by
    split_ifs with c1 c2
    · have := shift_word (s := s) hl (j := s / 64) (r := s % 64) hs' (by omega)
      rw [if_pos (by omega), hs] at this
      rw [← this, Nat.zero_add, Nat.add_comm 1]
    · have := shift_word (s := s) hl (j := s / 64) (r := s % 64) hs' (by omega)
      rw [if_neg (by omega), hs] at this
      rw [← this, Nat.zero_add]
    · rw [hz _ (by omega), Nat.zero_mod]
  have d1 : (if s < 448 then l.get (1 + s / 64) >>> (s % 64) |||
      (if s < 384 ∧ s % 64 ≠ 0 then u64 (l.get (2 + s / 64) <<< (64 - s % 64)) else 0)
      else 0) = l.nat / 2 ^ s / 2 ^ 64 % 2 ^ 64 := by
    rw [Nat.div_div_eq_div_mul, ← pow_add]
    split_ifs with c1 c2
    · have := shift_word (s := s) hl (j := s / 64 + 1) (r := s % 64) hs' (by omega)
      rw [if_pos (by omega), show 64 * (s / 64 + 1) + s % 64 = s + 64 by omega] at this
      rw [← this, Nat.add_comm 1, Nat.add_comm 2, Nat.add_assoc]
    · have := shift_word (s := s) hl (j := s / 64 + 1) (r := s % 64) hs' (by omega)
      rw [if_neg (by omega), show 64 * (s / 64 + 1) + s % 64 = s + 64 by omega] at this
      rw [← this, Nat.add_comm 1]
    · rw [hz _ (by omega), Nat.zero_mod]
  have d2 : (if s < 384 then l.get (2 + s / 64) >>> (s % 64) |||
      (if s < 320 ∧ s % 64 ≠ 0 then u64 (l.get (3 + s / 64) <<< (64 - s % 64)) else 0)
      else 0) = l.nat / 2 ^ s / 2 ^ 128 % 2 ^ 64 := by
    rw [Nat.div_div_eq_div_mul, ← pow_add]
    split_ifs with c1 c2
    · have := shift_word (s := s) hl (j := s / 64 + 2) (r := s % 64) hs' (by omega)
      rw [if_pos (by omega), show 64 * (s / 64 + 2) + s % 64 = s + 128 by omega] at this
      rw [← this, Nat.add_comm 2, Nat.add_comm 3, Nat.add_assoc]
    · have := shift_word (s := s) hl (j := s / 64 + 2) (r := s % 64) hs' (by omega)
      rw [if_neg (by omega), show 64 * (s / 64 + 2) + s % 64 = s + 128 by omega] at this
      rw [← this, Nat.add_comm 2]
    · rw [hz _ (by omega), Nat.zero_mod]
  have d3 : (if s < 320 then l.get (3 + s / 64) >>> (s % 64) else 0) =
      l.nat / 2 ^ s / 2 ^ 192 % 2 ^ 64 := by
    rw [Nat.div_div_eq_div_mul, ← pow_add]
    split_ifs with c1
    · have := shift_word (s := s) hl (j := s / 64 + 3) (r := s % 64) hs' (by omega)
      rw [if_neg (by omega), show 64 * (s / 64 + 3) + s % 64 = s + 192 by omega, Nat.or_zero] at this
      rw [← this, Nat.add_comm 3]
    · rw [hz _ (by omega), Nat.zero_mod]
  rw [d0, d1, d2, d3]
  obtain ⟨z, ez⟩ : ∃ z, z = l.nat / 2 ^ s := ⟨_, rfl⟩
  rw [← ez] at hb ⊢
  have hw : (Sc4.mk (z % 2 ^ 64) (z / 2 ^ 64 % 2 ^ 64) (z / 2 ^ 128 % 2 ^ 64)
      (z / 2 ^ 192 % 2 ^ 64)).Words := by
    constructor <;> exact Nat.mod_lt _ (by decide)
  have hn : (Sc4.mk (z % 2 ^ 64) (z / 2 ^ 64 % 2 ^ 64) (z / 2 ^ 128 % 2 ^ 64)
      (z / 2 ^ 192 % 2 ^ 64)).nat = z := by
    unfold nat
    dsimp only
    clear d0 d1 d2 d3 hz hbit h512 ez hs hs'
    omega
  rcases Nat.mod_two_eq_zero_or_one (l.nat / 2 ^ (s - 1)) with e | e
  · rw [e]
    rw [decide_eq_false (by decide), caddBit_noop hw (by decide)]
    exact ⟨hw, by rw [hn]; rfl⟩
  · rw [e, decide_eq_true rfl]
    have := caddBit_spec hw (b := 0) (by decide) (by rw [hn]; omega)
    rw [hn] at this
    exact this

end Model.Sc4
end Secp
