import Verif.Proof.Scalar8x32Ops
import Verif.Proof.Scalar4x64Bytes

/-!
# Helper lemmas: bits, bytes and shifts of scalars on 32-bit limbs
-/

namespace Secp
open Model
open Spec (beNat beBytes)

theorem shr_word32 {y r : ℕ} (hr : r < 32) :
    (y % 2 ^ 32) >>> r = y / 2 ^ r % 2 ^ (32 - r) := by
  rw [Nat.shiftRight_eq_div_pow, show (2 : ℕ) ^ 32 = 2 ^ r * 2 ^ (32 - r) by
    rw [← pow_add]; congr 1; omega, Nat.mod_mul_right_div_self]

theorem word_shift32 {y r : ℕ} (h0 : 0 < r) (hr : r < 32) :
    ((y % 2 ^ 32) >>> r) ||| u32 ((y / 2 ^ 32 % 2 ^ 32) <<< (32 - r)) = y / 2 ^ r % 2 ^ 32 := by
  have e64 : (2 : ℕ) ^ 32 = 2 ^ (32 - r) * 2 ^ r := by rw [← pow_add]; congr 1; omega
  have e1 : u32 ((y / 2 ^ 32 % 2 ^ 32) <<< (32 - r)) = (y / 2 ^ 32 % 2 ^ r) <<< (32 - r) := by
    unfold u32
    rw [Nat.shiftLeft_eq, Nat.shiftLeft_eq]
    conv_lhs => rw [show (y / 2 ^ 32 % 2 ^ 32 * 2 ^ (32 - r)) % 2 ^ 32 =
      (y / 2 ^ 32 % 2 ^ 32 * 2 ^ (32 - r)) % (2 ^ r * 2 ^ (32 - r)) by rw [e64, Nat.mul_comm (2 ^ r)]]
    rw [Nat.mul_mod_mul_right, Nat.mod_mod_of_dvd _ (pow_dvd_pow 2 (by omega))]
  have hp : 0 < 2 ^ (32 - r) := by positivity
  rw [e1, shr_word32 hr, or_shl (Nat.mod_lt _ hp)]
  conv_rhs => rw [e64, Nat.mod_mul, Nat.div_div_eq_div_mul, Nat.mul_comm (2 ^ r), ← e64]
  rw [Nat.mul_comm (2 ^ (32 - r))]

theorem word_shift32' {y r : ℕ} (hr : r < 32) :
    ((y % 2 ^ 32) >>> r) ||| (if r ≠ 0 then u32 ((y / 2 ^ 32 % 2 ^ 32) <<< (32 - r)) else 0) =
      y / 2 ^ r % 2 ^ 32 := by
  by_cases h : r = 0
  · subst h
    simp
  · rw [if_pos h, word_shift32 (by omega) hr]

theorem getD_out {l : List ℕ} {j : ℕ} (h : l.length ≤ j) : l.getD j 0 = 0 := by
  rw [List.getD_eq_getElem?_getD, List.getElem?_eq_none h, Option.getD_none]

/-- The words of a number. -/
theorem words32_get (l : List ℕ) (h : ∀ w ∈ l, w < 2 ^ 32) (j : ℕ) :
    l.getD j 0 = words32 l / 2 ^ (32 * j) % 2 ^ 32 := by
  induction l generalizing j with
  | nil => simp [words32]
  | cons w l ih =>
    have hw := h w List.mem_cons_self
    cases j with
    | zero =>
      rw [List.getD_cons_zero, words32, Nat.mul_zero, pow_zero, Nat.div_one]
      omega
    | succ j =>
      rw [List.getD_cons_succ, ih (fun x hx => h x (List.mem_cons_of_mem _ hx)) j, words32,
        Nat.mul_add 32, pow_add, Nat.mul_one, Nat.mul_comm (2 ^ (32 * j)), ← Nat.div_div_eq_div_mul]
      congr 2
      omega

namespace Model.Sc8

theorem Words.list {a : Sc8} (ha : a.Words) :
    ∀ w ∈ [a.d0, a.d1, a.d2, a.d3, a.d4, a.d5, a.d6, a.d7], w < 2 ^ 32 := by
  obtain ⟨h0, h1, h2, h3, h4, h5, h6, h7⟩ := ha
  simp only [List.forall_mem_cons, List.not_mem_nil, false_imp_iff, implies_true, and_true]
  exact ⟨h0, h1, h2, h3, h4, h5, h6, h7⟩

theorem limb_eq {a : Sc8} (ha : a.Words) {j : ℕ} (hj : j < 8) :
    a.limb j = a.nat / 2 ^ (32 * j) % 2 ^ 32 := by
  rw [nat_words, ← words32_get _ ha.list]
  unfold limb
  interval_cases j <;> rfl

theorem getBitsLimb32_spec {a : Sc8} (ha : a.Words) {o c : ℕ} (hc : 0 < c) (hc' : c ≤ 32)
    (h : (o + c - 1) / 32 = o / 32) (ho : o + c ≤ 256) :
    a.getBitsLimb32 o c = a.nat / 2 ^ o % 2 ^ c := by
  unfold getBitsLimb32
  rw [ones_shr hc hc', Nat.and_two_pow_sub_one_eq_mod, land_1f, Nat.shiftRight_eq_div_pow o 5,
    limb_eq ha (by omega), shr_word32 (by omega),
    Nat.mod_mod_of_dvd _ (pow_dvd_pow 2 (by omega)), Nat.div_div_eq_div_mul, ← pow_add]
  congr 3
  omega

theorem getBitsVar_spec {a : Sc8} (ha : a.Words) {o c : ℕ} (hc : 0 < c) (hc' : c ≤ 32)
    (ho : o + c ≤ 256) : a.getBitsVar o c = a.nat / 2 ^ o % 2 ^ c := by
  unfold getBitsVar
  simp only [Nat.shiftRight_eq_div_pow _ 5]
  split_ifs with h
  · exact getBitsLimb32_spec ha hc hc' h ho
  · rw [ones_shr hc hc', Nat.and_two_pow_sub_one_eq_mod, land_1f, limb_eq ha (by omega),
      limb_eq ha (by omega), show 32 * (o / 2 ^ 5 + 1) = 32 * (o / 2 ^ 5) + 32 by omega, pow_add,
      ← Nat.div_div_eq_div_mul, word_shift32 (by omega) (by omega),
      Nat.mod_mod_of_dvd _ (pow_dvd_pow 2 (by omega)), Nat.div_div_eq_div_mul, ← pow_add]
    congr 3
    omega

/-- Four bytes in big endian order. -/
theorem readBe32_eq {b : ℕ → ℕ} (hb : ∀ i, b i < 2 ^ 8) (o : ℕ) : readBe32 b o =
    b (o + 3) + b (o + 2) * 2 ^ 8 + b (o + 1) * 2 ^ 16 + b o * 2 ^ 24 := by
  have hs : ∀ x y k : ℕ, y < 2 ^ 8 → (x <<< (k + 8)) ||| (y <<< k) = (x * 2 ^ 8 + y) <<< k := by
    intro x y k hy
    have e : x <<< (k + 8) = (x <<< 8) <<< k := by
      rw [Nat.shiftLeft_eq, Nat.shiftLeft_eq, Nat.shiftLeft_eq, pow_add]
      ring
    rw [e, ← Nat.shiftLeft_or_distrib, Nat.or_comm, or_shl hy, Nat.add_comm]
  unfold readBe32
  have h1 := hb (o + 1)
  have h2 := hb (o + 2)
  have h3 := hb (o + 3)
  rw [hs _ _ 16 h1, hs _ _ 8 h2, Nat.or_comm, or_shl h3, Nat.add_zero o]
  omega

theorem writeBe32_eq (x : ℕ) : writeBe32 x = beBytes 4 x := by
  have hm : ∀ y, UInt8.ofNat (y % 256) = UInt8.ofNat y := by
    intro y
    apply UInt8.toNat_inj.1
    rw [UInt8.toNat_ofNat', UInt8.toNat_ofNat']
    exact Nat.mod_mod _ _
  unfold writeBe32
  simp only [beBytes, List.nil_append, List.cons_append, hm, Nat.shiftRight_eq_div_pow,
    Nat.div_div_eq_div_mul]

theorem getB32_spec (a : Sc8) (ha : a.Words) : a.getB32 = beBytes 32 a.nat := by
  obtain ⟨h0, h1, h2, h3, h4, h5, h6, h7⟩ := ha
  unfold getB32
  simp only [writeBe32_eq]
  have e : ∀ x y : ℕ, y < 2 ^ 32 → ∀ k, beBytes k x ++ beBytes 4 y = beBytes (k + 4) (x * 2 ^ 32 + y) := by
    intro x y hy k
    rw [Hash.beBytes_add]
    have e1 : (x * 2 ^ 32 + y) / 256 ^ 4 = x := by norm_num; omega
    rw [e1, ← Hash.beBytes_mod 4 (x * 2 ^ 32 + y)]
    have e2 : (x * 2 ^ 32 + y) % 256 ^ 4 = y := by norm_num; omega
    rw [e2]
  rw [e _ _ h6, e _ _ h5, e _ _ h4, e _ _ h3, e _ _ h2, e _ _ h1, e _ _ h0]
  congr 1
  unfold nat
  ring

/-- One word of the shifted number. -/
theorem shift_word {l : List ℕ} (hl : l.length = 16) (hw : ∀ w ∈ l, w < 2 ^ 32) {j r : ℕ}
    (hr : r < 32) :
    ((l.getD j 0) >>> r) ||| (if j + 1 < 16 ∧ r ≠ 0 then u32 (l.getD (j + 1) 0 <<< (32 - r)) else 0) =
      words32 l / 2 ^ (32 * j + r) % 2 ^ 32 := by
  have e : (if j + 1 < 16 ∧ r ≠ 0 then u32 (l.getD (j + 1) 0 <<< (32 - r)) else 0) =
      if r ≠ 0 then u32 (l.getD (j + 1) 0 <<< (32 - r)) else 0 := by
    by_cases h : j + 1 < 16
    · simp only [h, true_and]
    · rw [getD_out (by omega)]
      simp [h, u32]
  rw [e, words32_get l hw j, words32_get l hw (j + 1), pow_add _ (32 * j), ← Nat.div_div_eq_div_mul,
    ← word_shift32' hr, show 32 * (j + 1) = 32 * j + 32 by omega, pow_add _ (32 * j) 32,
    ← Nat.div_div_eq_div_mul]

/-- One word of `shift512`, for the word `k` of the result. -/
theorem shift_cell {l : List ℕ} (hl : l.length = 16) (hw : ∀ w ∈ l, w < 2 ^ 32) {s k : ℕ}
    (hk : k < 8) :
    (if s < 512 - 32 * k then (l.getD (k + s / 32) 0 >>> (s % 32)) |||
      (if s < 512 - 32 * (k + 1) ∧ s % 32 ≠ 0 then
        u32 (l.getD (k + 1 + s / 32) 0 <<< (32 - s % 32)) else 0) else 0) =
      words32 l / 2 ^ s / 2 ^ (32 * k) % 2 ^ 32 := by
  have hs := Nat.div_add_mod s 32
  have hs' : s % 32 < 32 := Nat.mod_lt _ (by decide)
  have key := shift_word hl hw (j := k + s / 32) hs'
  rw [Nat.div_div_eq_div_mul, ← pow_add, show s + 32 * k = 32 * (k + s / 32) + s % 32 by omega, ← key]
  split_ifs with c1 c2 c3 c3 c4 <;> first | omega | skip
  · rw [show k + 1 + s / 32 = k + s / 32 + 1 by omega]
  · rw [getD_out (by omega), Nat.zero_shiftRight]
    rfl

theorem shift_cell_last {l : List ℕ} (hl : l.length = 16) (hw : ∀ w ∈ l, w < 2 ^ 32) {s : ℕ}
    (hs : 256 ≤ s) : (if s < 288 then l.getD (7 + s / 32) 0 >>> (s % 32) else 0) =
      words32 l / 2 ^ s / 2 ^ 224 % 2 ^ 32 := by
  have := shift_cell hl hw (s := s) (k := 7) (by decide)
  rw [← this]
  have h : ¬ (s < 512 - 32 * (7 + 1) ∧ s % 32 ≠ 0) := by omega
  rw [if_neg h, Nat.or_zero]

theorem nat_digits {z : ℕ} (hz : z < 2 ^ 256) :
    (Sc8.mk (z % 2 ^ 32) (z / 2 ^ 32 % 2 ^ 32) (z / 2 ^ 64 % 2 ^ 32) (z / 2 ^ 96 % 2 ^ 32)
      (z / 2 ^ 128 % 2 ^ 32) (z / 2 ^ 160 % 2 ^ 32) (z / 2 ^ 192 % 2 ^ 32) (z / 2 ^ 224 % 2 ^ 32)).Words ∧
    (Sc8.mk (z % 2 ^ 32) (z / 2 ^ 32 % 2 ^ 32) (z / 2 ^ 64 % 2 ^ 32) (z / 2 ^ 96 % 2 ^ 32)
      (z / 2 ^ 128 % 2 ^ 32) (z / 2 ^ 160 % 2 ^ 32) (z / 2 ^ 192 % 2 ^ 32)
      (z / 2 ^ 224 % 2 ^ 32)).nat = z := by
  refine ⟨by constructor <;> exact Nat.mod_lt _ (by decide), ?_⟩
  unfold nat
  dsimp only
  omega

theorem shift512_spec {l : List ℕ} (hl : l.length = 16) (hw : ∀ w ∈ l, w < 2 ^ 32) {s : ℕ}
    (h1 : 256 ≤ s) (hb : words32 l / 2 ^ s + 1 < 2 ^ 256) :
    (shift512 l s).Words ∧
      (shift512 l s).nat = words32 l / 2 ^ s + words32 l / 2 ^ (s - 1) % 2 := by
  have hbit : l.getD ((s - 1) >>> 5) 0 >>> ((s - 1) &&& 0x1f) &&& 1 =
      words32 l / 2 ^ (s - 1) % 2 := by
    rw [land_one', land_1f, Nat.shiftRight_eq_div_pow _ 5, words32_get l hw,
      shr_word32 (by omega)]
    have hd : 2 ∣ 2 ^ (32 - (s - 1) % 2 ^ 5) := dvd_pow_self 2 (by omega)
    rw [Nat.mod_mod_of_dvd _ hd, Nat.div_div_eq_div_mul, ← pow_add]
    congr 3
    omega
  have p5 : (2 : ℕ) ^ 5 = 32 := rfl
  have c0 := shift_cell hl hw (s := s) (k := 0) (by decide)
  have c1 := shift_cell hl hw (s := s) (k := 1) (by decide)
  have c2 := shift_cell hl hw (s := s) (k := 2) (by decide)
  have c3 := shift_cell hl hw (s := s) (k := 3) (by decide)
  have c4 := shift_cell hl hw (s := s) (k := 4) (by decide)
  have c5 := shift_cell hl hw (s := s) (k := 5) (by decide)
  have c6 := shift_cell hl hw (s := s) (k := 6) (by decide)
  have c7 := shift_cell_last hl hw h1
  simp only [Nat.reduceMul, Nat.reduceAdd, Nat.reduceSub, pow_zero, Nat.div_one] at c0 c1 c2 c3 c4 c5 c6
  unfold shift512
  rw [hbit]
  simp only [Nat.shiftRight_eq_div_pow s 5, land_1f, p5]
  rw [c0, c1, c2, c3, c4, c5, c6, c7]
  clear c0 c1 c2 c3 c4 c5 c6 c7
  obtain ⟨z, ez⟩ : ∃ z, z = words32 l / 2 ^ s := ⟨_, rfl⟩
  rw [← ez] at hb ⊢
  obtain ⟨hw', hn⟩ := nat_digits (z := z) (by omega)
  rcases Nat.mod_two_eq_zero_or_one (words32 l / 2 ^ (s - 1)) with e | e
  · rw [e]
    rw [decide_eq_false (by decide), caddBit_noop hw' (by decide)]
    exact ⟨hw', by rw [hn]; rfl⟩
  · rw [e, decide_eq_true rfl]
    have := caddBit_spec hw' (b := 0) (by decide) (by rw [hn]; omega)
    rw [hn] at this
    exact this

end Model.Sc8
end Secp
