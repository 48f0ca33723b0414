import Verif.Proof.Field5x52Bytes
import Verif.Proof.Field10x26Ops

/-!
# Constants: field elements given by their 32-bit words
-/

namespace Secp.Model

theorem words_sum {x : ℕ} (hx : x < 2 ^ 256) :
    x / 2 ^ (32 * 0) % 2 ^ 32 + x / 2 ^ (32 * 1) % 2 ^ 32 * 2 ^ 32 + x / 2 ^ (32 * 2) % 2 ^ 32 * 2 ^ 64 +
    x / 2 ^ (32 * 3) % 2 ^ 32 * 2 ^ 96 + x / 2 ^ (32 * 4) % 2 ^ 32 * 2 ^ 128 + x / 2 ^ (32 * 5) % 2 ^ 32 * 2 ^ 160 +
    x / 2 ^ (32 * 6) % 2 ^ 32 * 2 ^ 192 + x / 2 ^ (32 * 7) % 2 ^ 32 * 2 ^ 224 = x := by
  simp only [Nat.reduceMul]
  omega

theorem or_u64 {a b k : ℕ} (ha : a < 2 ^ k) (hb : b * 2 ^ k < 2 ^ 64) :
    a ||| u64 (b <<< k) = a + b * 2 ^ k := by
  rw [u64, Nat.shiftLeft_eq, Nat.mod_eq_of_lt hb, ← Nat.shiftLeft_eq, or_shl ha, Nat.shiftLeft_eq]

theorem or_u32 {a b k : ℕ} (ha : a < 2 ^ k) (hb : b * 2 ^ k < 2 ^ 32) :
    a ||| u32 (b <<< k) = a + b * 2 ^ k := by
  rw [u32, Nat.shiftLeft_eq, Nat.mod_eq_of_lt hb, ← Nat.shiftLeft_eq, or_shl ha, Nat.shiftLeft_eq]

theorem land_mask (a k : ℕ) : a &&& (2 ^ k - 1) = a % 2 ^ k := Nat.and_two_pow_sub_one_eq_mod a k


theorem Fe5.feConst_words (d : ℕ → ℕ) (h : ∀ i, d i < 2 ^ 32) :
    d 0 ||| u64 ((d 1 &&& 0xFFFFF) <<< 32) = d 0 + d 1 % 2 ^ 20 * 2 ^ 32 ∧
    (d 1 >>> 20) ||| u64 (d 2 <<< 12) ||| u64 ((d 3 &&& 0xFF) <<< 44) =
      d 1 / 2 ^ 20 + d 2 * 2 ^ 12 + d 3 % 2 ^ 8 * 2 ^ 44 ∧
    (d 3 >>> 8) ||| u64 ((d 4 &&& 0xFFFFFFF) <<< 24) = d 3 / 2 ^ 8 + d 4 % 2 ^ 28 * 2 ^ 24 ∧
    (d 4 >>> 28) ||| u64 (d 5 <<< 4) ||| u64 ((d 6 &&& 0xFFFF) <<< 36) =
      d 4 / 2 ^ 28 + d 5 * 2 ^ 4 + d 6 % 2 ^ 16 * 2 ^ 36 ∧
    (d 6 >>> 16) ||| u64 (d 7 <<< 16) = d 6 / 2 ^ 16 + d 7 * 2 ^ 16 := by
  have m1 := land_mask (d 1) 20
  have m3 := land_mask (d 3) 8
  have m4 := land_mask (d 4) 28
  have m6 := land_mask (d 6) 16
  norm_num only at m1 m3 m4 m6
  have h0 := h 0
  have h1 := h 1
  have h2 := h 2
  have h3 := h 3
  have h4 := h 4
  have h5 := h 5
  have h6 := h 6
  have h7 := h 7
  rw [m1, m3, m4, m6]
  simp only [Nat.shiftRight_eq_div_pow]
  refine ⟨?_, ?_, ?_, ?_, ?_⟩
  · rw [or_u64 (by omega) (by omega)]; omega
  · rw [or_u64 (k := 12) (by omega) (by omega), or_u64 (by omega) (by omega)]; omega
  · rw [or_u64 (by omega) (by omega)]; omega
  · rw [or_u64 (k := 4) (by omega) (by omega), or_u64 (by omega) (by omega)]; omega
  · rw [or_u64 (by omega) (by omega)]

theorem Fe5.feConst_spec {x : ℕ} (hx : x < 2 ^ 256) : (Fe5.feConst x).nat = x ∧
    (Fe5.feConst x).n0 < 2 ^ 52 ∧ (Fe5.feConst x).n1 < 2 ^ 52 ∧ (Fe5.feConst x).n2 < 2 ^ 52 ∧
    (Fe5.feConst x).n3 < 2 ^ 52 ∧ (Fe5.feConst x).n4 < 2 ^ 48 := by
  have hw : ∀ i, Fe5.word32 x i < 2 ^ 32 := fun i => Nat.mod_lt _ (by norm_num)
  have hs := words_sum hx
  obtain ⟨e0, e1, e2, e3, e4⟩ := Fe5.feConst_words (Fe5.word32 x) hw
  unfold Fe5.feConst
  rw [e0, e1, e2, e3, e4]
  change Fe5.word32 x 0 + Fe5.word32 x 1 * 2 ^ 32 + Fe5.word32 x 2 * 2 ^ 64 + Fe5.word32 x 3 * 2 ^ 96 +
    Fe5.word32 x 4 * 2 ^ 128 + Fe5.word32 x 5 * 2 ^ 160 + Fe5.word32 x 6 * 2 ^ 192 +
    Fe5.word32 x 7 * 2 ^ 224 = x at hs
  have h0 := hw 0
  have h1 := hw 1
  have h2 := hw 2
  have h3 := hw 3
  have h4 := hw 4
  have h5 := hw 5
  have h6 := hw 6
  have h7 := hw 7
  generalize Fe5.word32 x 0 = d0 at *
  generalize Fe5.word32 x 1 = d1 at *
  generalize Fe5.word32 x 2 = d2 at *
  generalize Fe5.word32 x 3 = d3 at *
  generalize Fe5.word32 x 4 = d4 at *
  generalize Fe5.word32 x 5 = d5 at *
  generalize Fe5.word32 x 6 = d6 at *
  generalize Fe5.word32 x 7 = d7 at *
  clear e0 e1 e2 e3 e4 hw hx
  unfold Fe5.nat
  dsimp only
  refine ⟨by omega, by omega, by omega, by omega, by omega, by omega⟩

theorem Fe5.storageConst_spec {x : ℕ} (hx : x < 2 ^ 256) : (Fe5.storageConst x).nat = x ∧
    (Fe5.storageConst x).n0 < 2 ^ 64 ∧ (Fe5.storageConst x).n1 < 2 ^ 64 ∧
    (Fe5.storageConst x).n2 < 2 ^ 64 ∧ (Fe5.storageConst x).n3 < 2 ^ 64 := by
  have hw : ∀ i, Fe5.word32 x i < 2 ^ 32 := fun i => Nat.mod_lt _ (by norm_num)
  have hs := words_sum hx
  have key : ∀ i j, Fe5.word32 x i ||| u64 (Fe5.word32 x j <<< 32) =
      Fe5.word32 x i + Fe5.word32 x j * 2 ^ 32 := by
    intro i j
    have h1 := hw i
    have h2 := hw j
    exact or_u64 h1 (by omega)
  unfold Fe5.storageConst
  simp only [key]
  change Fe5.word32 x 0 + Fe5.word32 x 1 * 2 ^ 32 + Fe5.word32 x 2 * 2 ^ 64 + Fe5.word32 x 3 * 2 ^ 96 +
    Fe5.word32 x 4 * 2 ^ 128 + Fe5.word32 x 5 * 2 ^ 160 + Fe5.word32 x 6 * 2 ^ 192 +
    Fe5.word32 x 7 * 2 ^ 224 = x at hs
  have h0 := hw 0
  have h1 := hw 1
  have h2 := hw 2
  have h3 := hw 3
  have h4 := hw 4
  have h5 := hw 5
  have h6 := hw 6
  have h7 := hw 7
  clear key
  generalize Fe5.word32 x 0 = d0 at *
  generalize Fe5.word32 x 1 = d1 at *
  generalize Fe5.word32 x 2 = d2 at *
  generalize Fe5.word32 x 3 = d3 at *
  generalize Fe5.word32 x 4 = d4 at *
  generalize Fe5.word32 x 5 = d5 at *
  generalize Fe5.word32 x 6 = d6 at *
  generalize Fe5.word32 x 7 = d7 at *
  clear hw hx
  unfold FeStorage.nat
  dsimp only
  refine ⟨by omega, by omega, by omega, by omega, by omega⟩

theorem Fe10.feConst_words (d : ℕ → ℕ) (h : ∀ i, d i < 2 ^ 32) :
    d 0 &&& 0x3FFFFFF = d 0 % 2 ^ 26 ∧
    (d 0 >>> 26) ||| u32 ((d 1 &&& 0xFFFFF) <<< 6) = d 0 / 2 ^ 26 + d 1 % 2 ^ 20 * 2 ^ 6 ∧
    (d 1 >>> 20) ||| u32 ((d 2 &&& 0x3FFF) <<< 12) = d 1 / 2 ^ 20 + d 2 % 2 ^ 14 * 2 ^ 12 ∧
    (d 2 >>> 14) ||| u32 ((d 3 &&& 0xFF) <<< 18) = d 2 / 2 ^ 14 + d 3 % 2 ^ 8 * 2 ^ 18 ∧
    (d 3 >>> 8) ||| u32 ((d 4 &&& 0x3) <<< 24) = d 3 / 2 ^ 8 + d 4 % 2 ^ 2 * 2 ^ 24 ∧
    (d 4 >>> 2) &&& 0x3FFFFFF = d 4 / 2 ^ 2 % 2 ^ 26 ∧
    (d 4 >>> 28) ||| u32 ((d 5 &&& 0x3FFFFF) <<< 4) = d 4 / 2 ^ 28 + d 5 % 2 ^ 22 * 2 ^ 4 ∧
    (d 5 >>> 22) ||| u32 ((d 6 &&& 0xFFFF) <<< 10) = d 5 / 2 ^ 22 + d 6 % 2 ^ 16 * 2 ^ 10 ∧
    (d 6 >>> 16) ||| u32 ((d 7 &&& 0x3FF) <<< 16) = d 6 / 2 ^ 16 + d 7 % 2 ^ 10 * 2 ^ 16 ∧
    d 7 >>> 10 = d 7 / 2 ^ 10 := by
  have m0 := land_mask (d 0) 26
  have m1 := land_mask (d 1) 20
  have m2 := land_mask (d 2) 14
  have m3 := land_mask (d 3) 8
  have m4 := land_mask (d 4) 2
  have m4' := land_mask (d 4 / 2 ^ 2) 26
  have m5 := land_mask (d 5) 22
  have m6 := land_mask (d 6) 16
  have m7 := land_mask (d 7) 10
  norm_num only at m0 m1 m2 m3 m4 m4' m5 m6 m7
  have h0 := h 0
  have h1 := h 1
  have h2 := h 2
  have h3 := h 3
  have h4 := h 4
  have h5 := h 5
  have h6 := h 6
  have h7 := h 7
  simp only [Nat.shiftRight_eq_div_pow]
  rw [m0, m1, m2, m3, m4, m5, m6, m7]
  refine ⟨rfl, ?_, ?_, ?_, ?_, ?_, ?_, ?_, ?_, trivial⟩
  · rw [or_u32 (by omega) (by omega)]; omega
  · rw [or_u32 (by omega) (by omega)]; omega
  · rw [or_u32 (by omega) (by omega)]; omega
  · rw [or_u32 (by omega) (by omega)]; omega
  · exact land_mask (d 4 / 2 ^ 2) 26
  · rw [or_u32 (by omega) (by omega)]; omega
  · rw [or_u32 (by omega) (by omega)]; omega
  · rw [or_u32 (by omega) (by omega)]; omega

theorem Fe10.feConst_spec {x : ℕ} (hx : x < 2 ^ 256) : (Fe10.feConst x).nat = x ∧
    (Fe10.feConst x).Low ∧ (Fe10.feConst x).n9 < 2 ^ 22 := by
  have hw : ∀ i, x / 2 ^ (32 * i) % 2 ^ 32 < 2 ^ 32 := fun i => Nat.mod_lt _ (by norm_num)
  have hs := words_sum hx
  have e := Fe10.feConst_words (fun i => x / 2 ^ (32 * i) % 2 ^ 32) hw
  beta_reduce at e
  unfold Fe10.feConst
  dsimp only
  have h0 := hw 0
  have h1 := hw 1
  have h2 := hw 2
  have h3 := hw 3
  have h4 := hw 4
  have h5 := hw 5
  have h6 := hw 6
  have h7 := hw 7
  clear hw
  generalize x / 2 ^ (32 * 0) % 2 ^ 32 = d0 at *
  generalize x / 2 ^ (32 * 1) % 2 ^ 32 = d1 at *
  generalize x / 2 ^ (32 * 2) % 2 ^ 32 = d2 at *
  generalize x / 2 ^ (32 * 3) % 2 ^ 32 = d3 at *
  generalize x / 2 ^ (32 * 4) % 2 ^ 32 = d4 at *
  generalize x / 2 ^ (32 * 5) % 2 ^ 32 = d5 at *
  generalize x / 2 ^ (32 * 6) % 2 ^ 32 = d6 at *
  generalize x / 2 ^ (32 * 7) % 2 ^ 32 = d7 at *
  obtain ⟨e0, e1, e2, e3, e4, e5, e6, e7, e8, e9⟩ := e
  rw [e0, e1, e2, e3, e4, e5, e6, e7, e8, e9]
  clear e0 e1 e2 e3 e4 e5 e6 e7 e8 e9 hx
  refine ⟨?_, ⟨?_, ?_, ?_, ?_, ?_, ?_, ?_, ?_, ?_⟩, ?_⟩
  · unfold Fe10.nat
    dsimp only
    omega
  all_goals (try dsimp only); omega

theorem Fe10.storageConst_spec {x : ℕ} (hx : x < 2 ^ 256) : (Fe10.storageConst x).nat = x ∧
    (Fe10.storageConst x).Fits := by
  have hw : ∀ i, x / 2 ^ (32 * i) % 2 ^ 32 < 2 ^ 32 := fun i => Nat.mod_lt _ (by norm_num)
  exact ⟨words_sum hx, ⟨hw 0, hw 1, hw 2, hw 3, hw 4, hw 5, hw 6, hw 7⟩⟩

end Secp.Model
