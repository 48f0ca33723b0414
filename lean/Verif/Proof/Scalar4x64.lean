import Verif.Spec.ScalarLimbs
import Verif.Proof.Field5x52

/-!
# Helper lemmas: limbs of scalars
-/

namespace Secp
open Model

theorem bit_eq (b : Bool) : bit b = if b then 1 else 0 := rfl
theorem bit_le (b : Bool) : bit b ≤ 1 := by cases b <;> decide
theorem land_m64 (x : ℕ) : x &&& 0xFFFFFFFFFFFFFFFF = x % 2 ^ 64 :=
  Nat.and_two_pow_sub_one_eq_mod x 64
theorem land_3f (x : ℕ) : x &&& 0x3F = x % 2 ^ 6 := Nat.and_two_pow_sub_one_eq_mod x 6
theorem scNC0_eq : scNC0 = 0x402DA1732FC9BEBF := by decide
theorem scNC1_eq : scNC1 = 0x4551231950B75FC4 := by decide

namespace Model.Acc

/-- The number an accumulator stands for. -/
def val (c : Acc) : ℕ := c.c0 + c.c1 * 2 ^ 64 + c.c2 * 2 ^ 128

/-- The two low words fit. -/
structure Ok (c : Acc) (k : ℕ) : Prop where
  c0 : c.c0 < 2 ^ 64
  c1 : c.c1 < 2 ^ 64
  c2 : c.c2 ≤ k

theorem prod_lt {a b : ℕ} (ha : a < 2 ^ 64) (hb : b < 2 ^ 64) :
    a * b ≤ (2 ^ 64 - 1) * (2 ^ 64 - 1) := Nat.mul_le_mul (by omega) (by omega)

theorem muladd_spec {c : Acc} {k w a b : ℕ} (hc : c.Ok k) (ha : a < 2 ^ 64) (hb : b < 2 ^ 64)
    (hw : k + 1 < 2 ^ w) :
    (c.muladd w a b).Ok (k + 1) ∧ (c.muladd w a b).val = c.val + a * b := by
  obtain ⟨h0, h1, h2⟩ := hc
  have hp := prod_lt ha hb
  obtain ⟨q, hq⟩ : ∃ q, q = a * b := ⟨_, rfl⟩
  unfold muladd val u128Mul u128HiU64 u128ToU64 u64
  simp only [Nat.shiftRight_eq_div_pow, ← hq, bit_eq, decide_eq_true_eq]
  rw [← hq] at hp
  have hq2 : q % 2 ^ 128 = q := Nat.mod_eq_of_lt (by omega)
  rw [hq2]
  clear hq hq2
  obtain ⟨x0, e0⟩ : ∃ x, x = (c.c0 + q % 2 ^ 64) % 2 ^ 64 := ⟨_, rfl⟩
  rw [← e0]
  obtain ⟨th, et⟩ : ∃ x, x = (q / 2 ^ 64 % 2 ^ 64 + if x0 < q % 2 ^ 64 then 1 else 0) % 2 ^ 64 :=
    ⟨_, rfl⟩
  rw [← et]
  obtain ⟨x1, e1⟩ : ∃ x, x = (c.c1 + th) % 2 ^ 64 := ⟨_, rfl⟩
  rw [← e1]
  have hth : th = q / 2 ^ 64 + if x0 < q % 2 ^ 64 then 1 else 0 := by
    split_ifs at et ⊢ <;> omega
  clear et
  have hk : ∀ x, x ≤ 1 → (c.c2 + x) % 2 ^ w = c.c2 + x := fun x hx =>
    Nat.mod_eq_of_lt (by omega)
  have hs1 : (if x1 < th then 1 else 0) ≤ 1 := by split_ifs <;> omega
  rw [hk _ hs1]
  refine ⟨⟨by dsimp only; omega, by dsimp only; omega, by dsimp only; omega⟩, ?_⟩
  split_ifs at * <;> omega

theorem muladdFast_spec {c : Acc} {k a b : ℕ} (hc : c.Ok k) (ha : a < 2 ^ 64) (hb : b < 2 ^ 64)
    (hw : c.c0 + c.c1 * 2 ^ 64 + a * b < 2 ^ 128) :
    (c.muladdFast a b).Ok k ∧ (c.muladdFast a b).val = c.val + a * b := by
  obtain ⟨h0, h1, h2⟩ := hc
  have hp := prod_lt ha hb
  obtain ⟨q, hq⟩ : ∃ q, q = a * b := ⟨_, rfl⟩
  unfold muladdFast val u128Mul u128HiU64 u128ToU64 u64
  simp only [Nat.shiftRight_eq_div_pow, ← hq, bit_eq, decide_eq_true_eq]
  rw [← hq] at hp hw
  have hq2 : q % 2 ^ 128 = q := Nat.mod_eq_of_lt (by omega)
  rw [hq2]
  clear hq hq2
  obtain ⟨x0, e0⟩ : ∃ x, x = (c.c0 + q % 2 ^ 64) % 2 ^ 64 := ⟨_, rfl⟩
  rw [← e0]
  obtain ⟨th, et⟩ : ∃ x, x = (q / 2 ^ 64 % 2 ^ 64 + if x0 < q % 2 ^ 64 then 1 else 0) % 2 ^ 64 :=
    ⟨_, rfl⟩
  rw [← et]
  have hth : th = q / 2 ^ 64 + if x0 < q % 2 ^ 64 then 1 else 0 := by
    split_ifs at et ⊢ <;> omega
  clear et
  refine ⟨⟨by dsimp only; omega, by dsimp only; omega, h2⟩, ?_⟩
  split_ifs at * <;> omega

theorem sumadd_spec {c : Acc} {k w a : ℕ} (hc : c.Ok k) (ha : a < 2 ^ 64) (hw : k + 1 < 2 ^ w) :
    (c.sumadd w a).Ok (k + 1) ∧ (c.sumadd w a).val = c.val + a := by
  obtain ⟨h0, h1, h2⟩ := hc
  unfold sumadd val u64
  simp only [bit_eq, decide_eq_true_eq]
  obtain ⟨x0, e0⟩ : ∃ x, x = (c.c0 + a) % 2 ^ 64 := ⟨_, rfl⟩
  rw [← e0]
  obtain ⟨o, eo⟩ : ∃ x, x = (if x0 < a then 1 else 0) := ⟨_, rfl⟩
  rw [← eo]
  have ho : o ≤ 1 := by rw [eo]; split_ifs <;> omega
  obtain ⟨x1, e1⟩ : ∃ x, x = (c.c1 + o) % 2 ^ 64 := ⟨_, rfl⟩
  rw [← e1]
  have hk : ∀ x, x ≤ 1 → (c.c2 + x) % 2 ^ w = c.c2 + x := fun x hx =>
    Nat.mod_eq_of_lt (by omega)
  have hs1 : (if x1 < o then 1 else 0) ≤ 1 := by split_ifs <;> omega
  rw [hk _ hs1]
  refine ⟨⟨by dsimp only; omega, by dsimp only; omega, by dsimp only; omega⟩, ?_⟩
  split_ifs at * <;> omega

theorem sumaddFast_spec {c : Acc} {k a : ℕ} (hc : c.Ok k) (ha : a < 2 ^ 64)
    (hw : c.c0 + c.c1 * 2 ^ 64 + a < 2 ^ 128) :
    (c.sumaddFast a).Ok k ∧ (c.sumaddFast a).val = c.val + a := by
  obtain ⟨h0, h1, h2⟩ := hc
  unfold sumaddFast val u64
  simp only [bit_eq, decide_eq_true_eq]
  obtain ⟨x0, e0⟩ : ∃ x, x = (c.c0 + a) % 2 ^ 64 := ⟨_, rfl⟩
  rw [← e0]
  refine ⟨⟨by dsimp only; omega, by dsimp only; omega, h2⟩, ?_⟩
  split_ifs at * <;> omega

theorem extract_spec {c : Acc} {k : ℕ} (hc : c.Ok k) (hk : k < 2 ^ 64) :
    c.extract.Ok 0 ∧ c.val = c.c0 + 2 ^ 64 * c.extract.val := by
  obtain ⟨h0, h1, h2⟩ := hc
  unfold extract val
  refine ⟨⟨h1, by dsimp only; omega, le_refl _⟩, ?_⟩
  dsimp only
  omega

theorem extractFast_spec {c : Acc} (hc : c.Ok 0) :
    c.extractFast.Ok 0 ∧ c.val = c.c0 + 2 ^ 64 * c.extractFast.val ∧ c.extractFast.c1 = 0 := by
  obtain ⟨h0, h1, h2⟩ := hc
  unfold extractFast val
  refine ⟨⟨h1, by dsimp only; omega, h2⟩, ?_, rfl⟩
  dsimp only
  omega

theorem val_of_ok {c : Acc} (hc : c.Ok 0) : c.val = c.c0 + c.c1 * 2 ^ 64 := by
  have := hc.c2
  unfold val
  omega

end Model.Acc

namespace Model.Sc4
open Acc

theorem n_eq : n = scN0 + scN1 * 2 ^ 64 + scN2 * 2 ^ 128 + scN3 * 2 ^ 192 := by
  unfold n; decide +kernel

theorem n_lit : n = 115792089237316195423570985008687907852837564279074904382605163141518161494337 := by
  unfold n; rfl

theorem checkOverflow_iff {a : Sc4} (ha : a.Words) : a.checkOverflow = true ↔ n ≤ a.nat := by
  obtain ⟨h0, h1, h2, h3⟩ := ha
  rw [n_lit]
  unfold checkOverflow nat scN0 scN1 scN2 scN3
  simp only [Bool.false_or, Bool.or_eq_true, Bool.and_eq_true, Bool.not_eq_true', decide_eq_true_eq,
    Bool.or_eq_false_iff, decide_eq_false_iff_not]
  omega

theorem reduce_spec {r : Sc4} {o : ℕ} (hr : r.Words) (ho : o ≤ 1) :
    (r.reduce o).Words ∧ (r.reduce o).nat = (r.nat + o * (2 ^ 256 - n)) % 2 ^ 256 := by
  obtain ⟨h0, h1, h2, h3⟩ := hr
  rw [n_lit]
  unfold reduce u128ToU64 u128Rshift u128AccumU64 u64 nat
  simp only [Nat.shiftRight_eq_div_pow, scNC0_eq, scNC1_eq, scNC2]
  have : o = 0 ∨ o = 1 := by omega
  rcases this with rfl | rfl
  · refine ⟨⟨?_, ?_, ?_, ?_⟩, ?_⟩ <;> (try dsimp only) <;> omega
  · refine ⟨⟨?_, ?_, ?_, ?_⟩, ?_⟩ <;> (try dsimp only) <;> omega

theorem Words.lt {a : Sc4} (ha : a.Words) : a.nat < 2 ^ 256 := by
  obtain ⟨h0, h1, h2, h3⟩ := ha
  unfold nat
  omega

/-- Reducing a number below `2 * n` that is given by words and a carry. -/
theorem reduce_final {r : Sc4} {c : ℕ} (hr : r.Words) (h : r.nat + c * 2 ^ 256 < 2 * n) :
    c + bit r.checkOverflow ≤ 1 ∧
    (c + bit r.checkOverflow = 1 ↔ n ≤ r.nat + c * 2 ^ 256) ∧
    (r.reduce (c + bit r.checkOverflow)).Words ∧
    (r.reduce (c + bit r.checkOverflow)).nat = (r.nat + c * 2 ^ 256) % n := by
  have h256 := hr.lt
  have hiff := checkOverflow_iff hr
  have hle : c + bit r.checkOverflow ≤ 1 := by
    rw [bit_eq]
    split_ifs with h1
    · have := hiff.1 h1
      rw [n_lit] at *
      omega
    · rw [n_lit] at *
      omega
  refine ⟨hle, ?_, (reduce_spec hr hle).1, ?_⟩
  · rw [bit_eq]
    split_ifs with h1
    · have := hiff.1 h1
      rw [n_lit] at *
      omega
    · have := mt hiff.2 h1
      rw [n_lit] at *
      omega
  rw [(reduce_spec hr hle).2, bit_eq]
  have hc : c = 0 ∨ c = 1 := by omega
  split_ifs with h1
  · have := hiff.1 h1
    rw [n_lit] at *
    rcases hc with rfl | rfl <;> omega
  · have := mt hiff.2 h1
    rw [n_lit] at *
    rcases hc with rfl | rfl <;> omega

end Model.Sc4
end Secp
