import Verif.Proof.Modinv64Var
import Verif.Proof.LimbRep5
import Verif.Spec.ScalarLimbs

/-!
Conversion of field elements and scalars to and from signed 62-bit limbs.
-/

namespace Secp.Model

theorem u64_shl {x k : ℕ} (hk : k ≤ 64) : u64 (x <<< k) = (x % 2 ^ (64 - k)) <<< k := by
  unfold u64
  rw [Nat.shiftLeft_eq, Nat.shiftLeft_eq, ← Nat.mul_mod_mul_right, ← pow_add,
    show 64 - k + k = 64 by omega]

theorem modinfoFe_ok : modinfoFe.Ok (p : ℤ) := by
  unfold p
  constructor <;> decide

theorem modinfoScalar_ok : modinfoScalar.Ok (n : ℤ) := by
  unfold n
  constructor <;> decide

/-- A normalized field element as signed limbs. -/
theorem Fe5.toSigned62_spec {a : Fe5} (h : a.Norm) :
    a.toSigned62.Canon ∧ a.toSigned62.int = (a.nat : ℤ) := by
  obtain ⟨h0, h1, h2, h3, h4⟩ := h
  have hp : p < 2 ^ 256 := by unfold p; decide
  have hn4 : a.n4 < 2 ^ 48 := by unfold Fe5.nat at h4; omega
  have e1 : (a.n0 ||| u64 (a.n1 <<< 52)) &&& m62 = a.n0 + a.n1 % 2 ^ 10 * 2 ^ 52 := by
    rw [u64_shl (by omega), or_shl h0, land_m62]; omega
  have e2 : (a.n1 >>> 10 ||| u64 (a.n2 <<< 42)) &&& m62 = a.n1 / 2 ^ 10 + a.n2 % 2 ^ 20 * 2 ^ 42 := by
    rw [Nat.shiftRight_eq_div_pow, u64_shl (by omega), or_shl (by omega), land_m62]; omega
  have e3 : (a.n2 >>> 20 ||| u64 (a.n3 <<< 32)) &&& m62 = a.n2 / 2 ^ 20 + a.n3 % 2 ^ 30 * 2 ^ 32 := by
    rw [Nat.shiftRight_eq_div_pow, u64_shl (by omega), or_shl (by omega), land_m62]; omega
  have e4 : (a.n3 >>> 30 ||| u64 (a.n4 <<< 22)) &&& m62 = a.n3 / 2 ^ 30 + a.n4 % 2 ^ 40 * 2 ^ 22 := by
    rw [Nat.shiftRight_eq_div_pow, u64_shl (by omega), or_shl (by omega), land_m62]; omega
  have e5 : a.n4 >>> 40 = a.n4 / 2 ^ 40 := Nat.shiftRight_eq_div_pow _ _
  unfold Fe5.toSigned62
  rw [e1, e2, e3, e4, e5]
  refine ⟨⟨?_, ?_, ?_, ?_, ?_⟩, ?_⟩
  · dsimp only; omega
  · dsimp only; omega
  · dsimp only; omega
  · dsimp only; omega
  · dsimp only; omega
  · unfold S62.int Fe5.nat
    dsimp only
    push_cast
    omega

theorem toU64_of_nonneg {x : ℤ} (h0 : 0 ≤ x) (h1 : x < 2 ^ 62) : ∃ y : ℕ, toU64 x = y ∧ (y : ℤ) = x ∧ y < 2 ^ 62 := by
  have := toU64_cast x
  exact ⟨toU64 x, rfl, by omega, by omega⟩

/-- Signed limbs as a field element. -/
theorem Fe5.fromSigned62_spec {a : S62} (h : a.Canon) (hlt : a.int < p) :
    (Fe5.fromSigned62 a).Norm ∧ ((Fe5.fromSigned62 a).nat : ℤ) = a.int := by
  obtain ⟨h0, h1, h2, h3, h4⟩ := h
  have hp : p < 2 ^ 256 := by unfold p; decide
  obtain ⟨a0, t0, c0, b0⟩ := toU64_of_nonneg h0.1 h0.2
  obtain ⟨a1, t1, c1, b1⟩ := toU64_of_nonneg h1.1 h1.2
  obtain ⟨a2, t2, c2, b2⟩ := toU64_of_nonneg h2.1 h2.2
  obtain ⟨a3, t3, c3, b3⟩ := toU64_of_nonneg h3.1 h3.2
  obtain ⟨a4, t4, c4, b4⟩ := toU64_of_nonneg h4.1 h4.2
  have hint : a.int = ((a0 + a1 * 2 ^ 62 + a2 * 2 ^ 124 + a3 * 2 ^ 186 + a4 * 2 ^ 248 : ℕ) : ℤ) := by
    unfold S62.int; push_cast; rw [c0, c1, c2, c3, c4]
  rw [hint] at hlt ⊢
  have hb4 : a4 < 2 ^ 8 := by omega
  have m : ∀ x : ℕ, x &&& m52 = x % 2 ^ 52 := fun x => Nat.and_two_pow_sub_one_eq_mod x 52
  have e0 : a0 &&& m52 = a0 % 2 ^ 52 := m _
  have e1 : (a0 >>> 52 ||| u64 (a1 <<< 10)) &&& m52 = a0 / 2 ^ 52 + a1 % 2 ^ 42 * 2 ^ 10 := by
    rw [Nat.shiftRight_eq_div_pow, u64_shl (by omega), or_shl (by omega), m]; omega
  have e2 : (a1 >>> 42 ||| u64 (a2 <<< 20)) &&& m52 = a1 / 2 ^ 42 + a2 % 2 ^ 32 * 2 ^ 20 := by
    rw [Nat.shiftRight_eq_div_pow, u64_shl (by omega), or_shl (by omega), m]; omega
  have e3 : (a2 >>> 32 ||| u64 (a3 <<< 30)) &&& m52 = a2 / 2 ^ 32 + a3 % 2 ^ 22 * 2 ^ 30 := by
    rw [Nat.shiftRight_eq_div_pow, u64_shl (by omega), or_shl (by omega), m]; omega
  have e4 : a3 >>> 22 ||| u64 (a4 <<< 40) = a3 / 2 ^ 22 + a4 * 2 ^ 40 := by
    rw [Nat.shiftRight_eq_div_pow, u64_shl (by omega), or_shl (by omega)]; omega
  unfold Fe5.fromSigned62
  rw [t0, t1, t2, t3, t4]
  dsimp only
  rw [e0, e1, e2, e3, e4]
  have hn : Fe5.nat ⟨a0 % 2 ^ 52, a0 / 2 ^ 52 + a1 % 2 ^ 42 * 2 ^ 10, a1 / 2 ^ 42 + a2 % 2 ^ 32 * 2 ^ 20,
      a2 / 2 ^ 32 + a3 % 2 ^ 22 * 2 ^ 30, a3 / 2 ^ 22 + a4 * 2 ^ 40⟩ =
      a0 + a1 * 2 ^ 62 + a2 * 2 ^ 124 + a3 * 2 ^ 186 + a4 * 2 ^ 248 := by
    unfold Fe5.nat
    dsimp only
    omega
  refine ⟨⟨?_, ?_, ?_, ?_, ?_⟩, by rw [hn]⟩
  · dsimp only; omega
  · dsimp only; omega
  · dsimp only; omega
  · dsimp only; omega
  · rw [hn]; exact_mod_cast hlt

/-- A scalar as signed limbs. -/
theorem Sc4.toSigned62_spec {a : Sc4} (h : a.Words) :
    (Sc4.toSigned62 a).Canon ∧ (Sc4.toSigned62 a).int = (a.nat : ℤ) := by
  obtain ⟨h0, h1, h2, h3⟩ := h
  have e0 : a.d0 &&& m62 = a.d0 % 2 ^ 62 := land_m62 _
  have e1 : (a.d0 >>> 62 ||| u64 (a.d1 <<< 2)) &&& m62 = a.d0 / 2 ^ 62 + a.d1 % 2 ^ 60 * 2 ^ 2 := by
    rw [Nat.shiftRight_eq_div_pow, u64_shl (by omega), or_shl (by omega), land_m62]; omega
  have e2 : (a.d1 >>> 60 ||| u64 (a.d2 <<< 4)) &&& m62 = a.d1 / 2 ^ 60 + a.d2 % 2 ^ 58 * 2 ^ 4 := by
    rw [Nat.shiftRight_eq_div_pow, u64_shl (by omega), or_shl (by omega), land_m62]; omega
  have e3 : (a.d2 >>> 58 ||| u64 (a.d3 <<< 6)) &&& m62 = a.d2 / 2 ^ 58 + a.d3 % 2 ^ 56 * 2 ^ 6 := by
    rw [Nat.shiftRight_eq_div_pow, u64_shl (by omega), or_shl (by omega), land_m62]; omega
  have e5 : a.d3 >>> 56 = a.d3 / 2 ^ 56 := Nat.shiftRight_eq_div_pow _ _
  unfold Sc4.toSigned62
  rw [e0, e1, e2, e3, e5]
  refine ⟨⟨?_, ?_, ?_, ?_, ?_⟩, ?_⟩
  · dsimp only; omega
  · dsimp only; omega
  · dsimp only; omega
  · dsimp only; omega
  · dsimp only; omega
  · unfold S62.int Sc4.nat
    dsimp only
    push_cast
    omega

/-- Signed limbs as a scalar. -/
theorem Sc4.fromSigned62_spec {a : S62} (h : a.Canon) (hlt : a.int < 2 ^ 256) :
    (Sc4.fromSigned62 a).Words ∧ ((Sc4.fromSigned62 a).nat : ℤ) = a.int := by
  obtain ⟨h0, h1, h2, h3, h4⟩ := h
  obtain ⟨a0, t0, c0, b0⟩ := toU64_of_nonneg h0.1 h0.2
  obtain ⟨a1, t1, c1, b1⟩ := toU64_of_nonneg h1.1 h1.2
  obtain ⟨a2, t2, c2, b2⟩ := toU64_of_nonneg h2.1 h2.2
  obtain ⟨a3, t3, c3, b3⟩ := toU64_of_nonneg h3.1 h3.2
  obtain ⟨a4, t4, c4, b4⟩ := toU64_of_nonneg h4.1 h4.2
  have hint : a.int = ((a0 + a1 * 2 ^ 62 + a2 * 2 ^ 124 + a3 * 2 ^ 186 + a4 * 2 ^ 248 : ℕ) : ℤ) := by
    unfold S62.int; push_cast; rw [c0, c1, c2, c3, c4]
  rw [hint] at hlt ⊢
  have hb4 : a4 < 2 ^ 8 := by omega
  have e0 : a0 ||| u64 (a1 <<< 62) = a0 + a1 % 2 ^ 2 * 2 ^ 62 := by
    rw [u64_shl (by omega), or_shl b0]
  have e1 : a1 >>> 2 ||| u64 (a2 <<< 60) = a1 / 2 ^ 2 + a2 % 2 ^ 4 * 2 ^ 60 := by
    rw [Nat.shiftRight_eq_div_pow, u64_shl (by omega), or_shl (by omega)]
  have e2 : a2 >>> 4 ||| u64 (a3 <<< 58) = a2 / 2 ^ 4 + a3 % 2 ^ 6 * 2 ^ 58 := by
    rw [Nat.shiftRight_eq_div_pow, u64_shl (by omega), or_shl (by omega)]
  have e3 : a3 >>> 6 ||| u64 (a4 <<< 56) = a3 / 2 ^ 6 + a4 * 2 ^ 56 := by
    rw [Nat.shiftRight_eq_div_pow, u64_shl (by omega), or_shl (by omega)]; omega
  unfold Sc4.fromSigned62
  rw [t0, t1, t2, t3, t4]
  dsimp only
  rw [e0, e1, e2, e3]
  refine ⟨⟨?_, ?_, ?_, ?_⟩, ?_⟩
  · dsimp only; omega
  · dsimp only; omega
  · dsimp only; omega
  · dsimp only; omega
  · unfold Sc4.nat
    dsimp only
    push_cast
    omega

end Secp.Model
