import Verif.Proof.Modinv32Var
import Verif.Proof.Modinv64Conv
import Verif.Proof.Field10x26
import Verif.Spec.Limbs10
import Verif.Spec.ScalarLimbs8

/-!
Conversion of field elements and scalars to and from signed 30-bit limbs.
-/

namespace Secp.Model
open M32

theorem u32_shl {x k : ℕ} (hk : k ≤ 32) : u32 (x <<< k) = (x % 2 ^ (32 - k)) <<< k := by
  unfold u32
  rw [Nat.shiftLeft_eq, Nat.shiftLeft_eq, ← Nat.mul_mod_mul_right, ← pow_add,
    show 32 - k + k = 32 by omega]

/-- The bits of `x` from `j` on, followed by those of `y`, in 32 bits. -/
theorem pack32 {x y j k : ℕ} (hk : k ≤ 32) (hx : x < 2 ^ (j + k)) :
    x >>> j ||| u32 (y <<< k) = x / 2 ^ j + y % 2 ^ (32 - k) * 2 ^ k := by
  rw [Nat.shiftRight_eq_div_pow, u32_shl hk, or_shl]
  rw [pow_add] at hx
  exact Nat.div_lt_of_lt_mul hx

/-- The bits of `x` from `j` on, followed by those of `y`, in 64 bits. -/
theorem pack64 {x y j k : ℕ} (hk : k ≤ 64) (hx : x < 2 ^ (j + k)) :
    x >>> j ||| u64 (y <<< k) = x / 2 ^ j + y % 2 ^ (64 - k) * 2 ^ k := by
  rw [Nat.shiftRight_eq_div_pow, u64_shl hk, or_shl]
  rw [pow_add] at hx
  exact Nat.div_lt_of_lt_mul hx

theorem M32.modinfoFe_ok : M32.modinfoFe.Ok (p : ℤ) := by
  unfold p
  constructor <;> decide

theorem M32.modinfoScalar_ok : M32.modinfoScalar.Ok (n : ℤ) := by
  unfold n
  constructor <;> decide

/-- A normalized field element as signed limbs. -/
theorem Fe10.toSigned30_spec {a : Fe10} (h : a.Norm) :
    Canon a.toSigned30 ∧ int30 a.toSigned30 = (a.nat : ℤ) := by
  obtain ⟨h0, h1, h2, h3, h4, h5, h6, h7, h8, h9⟩ := h
  have hp : p < 2 ^ 256 := by unfold p; decide
  have hn9 : a.n9 < 2 ^ 22 := by unfold Fe10.nat at h9; omega
  clear h9
  have e0 : (a.n0 ||| u64 (a.n1 <<< 26)) &&& m30 = a.n0 + a.n1 % 2 ^ 4 * 2 ^ 26 := by
    have := pack64 (x := a.n0) (y := a.n1) (j := 0) (k := 26) (by norm_num) (by omega)
    rw [Nat.shiftRight_zero] at this
    rw [this, land_m30]; clear * - h0; omega
  have e1 : (a.n1 >>> 4 ||| u64 (a.n2 <<< 22)) &&& m30 = a.n1 / 2 ^ 4 + a.n2 % 2 ^ 8 * 2 ^ 22 := by
    rw [pack64 (by norm_num) (by omega), land_m30]; clear * - h1; omega
  have e2 : (a.n2 >>> 8 ||| u64 (a.n3 <<< 18)) &&& m30 = a.n2 / 2 ^ 8 + a.n3 % 2 ^ 12 * 2 ^ 18 := by
    rw [pack64 (by norm_num) (by omega), land_m30]; clear * - h2; omega
  have e3 : (a.n3 >>> 12 ||| u64 (a.n4 <<< 14)) &&& m30 = a.n3 / 2 ^ 12 + a.n4 % 2 ^ 16 * 2 ^ 14 := by
    rw [pack64 (by norm_num) (by omega), land_m30]; clear * - h3; omega
  have e4 : (a.n4 >>> 16 ||| u64 (a.n5 <<< 10)) &&& m30 = a.n4 / 2 ^ 16 + a.n5 % 2 ^ 20 * 2 ^ 10 := by
    rw [pack64 (by norm_num) (by omega), land_m30]; clear * - h4; omega
  have e5 : (a.n5 >>> 20 ||| u64 (a.n6 <<< 6)) &&& m30 = a.n5 / 2 ^ 20 + a.n6 % 2 ^ 24 * 2 ^ 6 := by
    rw [pack64 (by norm_num) (by omega), land_m30]; clear * - h5; omega
  have e6 : (a.n6 >>> 24 ||| u64 (a.n7 <<< 2) ||| u64 (a.n8 <<< 28)) &&& m30 =
      a.n6 / 2 ^ 24 + a.n7 * 2 ^ 2 + a.n8 % 2 ^ 2 * 2 ^ 28 := by
    rw [pack64 (by norm_num) (by omega), u64_shl (by norm_num), or_shl (by clear * - h6 h7; omega), land_m30]
    clear * - h6 h7; omega
  have e7 : (a.n8 >>> 2 ||| u64 (a.n9 <<< 24)) &&& m30 = a.n8 / 2 ^ 2 + a.n9 % 2 ^ 6 * 2 ^ 24 := by
    rw [pack64 (by norm_num) (by omega), land_m30]; clear * - h8; omega
  have e8 : toI32 (a.n9 >>> 6 : ℕ) = (a.n9 / 2 ^ 6 : ℕ) := by
    rw [Nat.shiftRight_eq_div_pow]
    exact toI32_eq (by omega) (by omega)
  have b8 : a.n9 / 2 ^ 6 < 2 ^ 30 := by clear * - hn9; omega
  unfold Fe10.toSigned30
  rw [e0, e1, e2, e3, e4, e5, e6, e7, e8]
  refine ⟨⟨rfl, ?_⟩, ?_⟩
  · intro x hx
    simp only [List.mem_cons, List.not_mem_nil, or_false] at hx
    have key : ∀ y : ℕ, y < 2 ^ 30 → x = (y : ℤ) → 0 ≤ x ∧ x < 2 ^ 30 := by
      intro y hy e; omega
    rcases hx with hx | hx | hx | hx | hx | hx | hx | hx | hx <;> refine key _ ?_ hx
    · clear * - h0; omega
    · clear * - h1; omega
    · clear * - h2; omega
    · clear * - h3; omega
    · clear * - h4; omega
    · clear * - h5; omega
    · clear * - h6 h7; omega
    · clear * - h8; omega
    · exact b8
  · simp only [int30]
    unfold Fe10.nat
    obtain ⟨n0, n1, n2, n3, n4, n5, n6, n7, n8, n9⟩ := a
    dsimp only
    have s1 := Nat.div_add_mod n1 (2 ^ 4)
    have s2 := Nat.div_add_mod n2 (2 ^ 8)
    have s3 := Nat.div_add_mod n3 (2 ^ 12)
    have s4 := Nat.div_add_mod n4 (2 ^ 16)
    have s5 := Nat.div_add_mod n5 (2 ^ 20)
    have s6 := Nat.div_add_mod n6 (2 ^ 24)
    have s8 := Nat.div_add_mod n8 (2 ^ 2)
    have s9 := Nat.div_add_mod n9 (2 ^ 6)
    generalize n1 / 2 ^ 4 = q1 at *
    generalize n1 % 2 ^ 4 = r1 at *
    generalize n2 / 2 ^ 8 = q2 at *
    generalize n2 % 2 ^ 8 = r2 at *
    generalize n3 / 2 ^ 12 = q3 at *
    generalize n3 % 2 ^ 12 = r3 at *
    generalize n4 / 2 ^ 16 = q4 at *
    generalize n4 % 2 ^ 16 = r4 at *
    generalize n5 / 2 ^ 20 = q5 at *
    generalize n5 % 2 ^ 20 = r5 at *
    generalize n6 / 2 ^ 24 = q6 at *
    generalize n6 % 2 ^ 24 = r6 at *
    generalize n8 / 2 ^ 2 = q8 at *
    generalize n8 % 2 ^ 2 = r8 at *
    generalize n9 / 2 ^ 6 = q9 at *
    generalize n9 % 2 ^ 6 = r9 at *
    clear * - s1 s2 s3 s4 s5 s6 s8 s9
    subst s1 s2 s3 s4 s5 s6 s8 s9
    push_cast
    ring

theorem toU32_of_nonneg {x : ℤ} (h : 0 ≤ x ∧ x < 2 ^ 30) :
    ∃ y : ℕ, toU32 x = y ∧ x = (y : ℤ) ∧ y < 2 ^ 30 := by
  have := toU32_cast x
  exact ⟨toU32 x, rfl, by omega, by omega⟩

theorem M32.Canon.nine {a : List ℤ} (h : Canon a) : ∃ a0 a1 a2 a3 a4 a5 a6 a7 a8 : ℕ,
    a0 < 2 ^ 30 ∧ a1 < 2 ^ 30 ∧ a2 < 2 ^ 30 ∧ a3 < 2 ^ 30 ∧ a4 < 2 ^ 30 ∧ a5 < 2 ^ 30 ∧ a6 < 2 ^ 30 ∧
    a7 < 2 ^ 30 ∧ a8 < 2 ^ 30 ∧
    a = [(a0 : ℤ), (a1 : ℤ), (a2 : ℤ), (a3 : ℤ), (a4 : ℤ), (a5 : ℤ), (a6 : ℤ), (a7 : ℤ), (a8 : ℤ)] := by
  obtain ⟨hl, hb⟩ := h
  match a, hl with
  | [x0, x1, x2, x3, x4, x5, x6, x7, x8], _ =>
    obtain ⟨a0, -, rfl, b0⟩ := toU32_of_nonneg (hb x0 (by simp))
    obtain ⟨a1, -, rfl, b1⟩ := toU32_of_nonneg (hb x1 (by simp))
    obtain ⟨a2, -, rfl, b2⟩ := toU32_of_nonneg (hb x2 (by simp))
    obtain ⟨a3, -, rfl, b3⟩ := toU32_of_nonneg (hb x3 (by simp))
    obtain ⟨a4, -, rfl, b4⟩ := toU32_of_nonneg (hb x4 (by simp))
    obtain ⟨a5, -, rfl, b5⟩ := toU32_of_nonneg (hb x5 (by simp))
    obtain ⟨a6, -, rfl, b6⟩ := toU32_of_nonneg (hb x6 (by simp))
    obtain ⟨a7, -, rfl, b7⟩ := toU32_of_nonneg (hb x7 (by simp))
    obtain ⟨a8, -, rfl, b8⟩ := toU32_of_nonneg (hb x8 (by simp))
    exact ⟨a0, a1, a2, a3, a4, a5, a6, a7, a8, b0, b1, b2, b3, b4, b5, b6, b7, b8, rfl⟩

theorem toU32_natCast {y : ℕ} (h : y < 2 ^ 30) : toU32 (y : ℤ) = y := by
  unfold toU32
  omega

theorem int30_nine (a0 a1 a2 a3 a4 a5 a6 a7 a8 : ℕ) :
    int30 [(a0 : ℤ), (a1 : ℤ), (a2 : ℤ), (a3 : ℤ), (a4 : ℤ), (a5 : ℤ), (a6 : ℤ), (a7 : ℤ), (a8 : ℤ)] =
    ((a0 + a1 * 2 ^ 30 + a2 * 2 ^ 60 + a3 * 2 ^ 90 + a4 * 2 ^ 120 + a5 * 2 ^ 150 + a6 * 2 ^ 180 +
      a7 * 2 ^ 210 + a8 * 2 ^ 240 : ℕ) : ℤ) := by
  simp only [int30]
  push_cast
  ring

/-- Signed limbs as a field element. -/
theorem Fe10.fromSigned30_spec {a : List ℤ} (h : Canon a) (hlt : int30 a < p) :
    (Fe10.fromSigned30 a).Norm ∧ ((Fe10.fromSigned30 a).nat : ℤ) = int30 a := by
  obtain ⟨a0, a1, a2, a3, a4, a5, a6, a7, a8, b0, b1, b2, b3, b4, b5, b6, b7, b8, rfl⟩ := h.nine
  have hp : p < 2 ^ 256 := by unfold p; decide
  rw [int30_nine] at hlt ⊢
  have hlt' : a0 + a1 * 2 ^ 30 + a2 * 2 ^ 60 + a3 * 2 ^ 90 + a4 * 2 ^ 120 + a5 * 2 ^ 150 + a6 * 2 ^ 180 +
      a7 * 2 ^ 210 + a8 * 2 ^ 240 < p := by exact_mod_cast hlt
  have c8 : a8 < 2 ^ 16 := by clear * - hlt' hp; omega
  have e1 : (a0 >>> 26 ||| u32 (a1 <<< 4)) &&& m26 = a0 / 2 ^ 26 + a1 % 2 ^ 22 * 2 ^ 4 := by
    rw [pack32 (by norm_num) b0, land_m26]; clear * - b0; omega
  have e2 : (a1 >>> 22 ||| u32 (a2 <<< 8)) &&& m26 = a1 / 2 ^ 22 + a2 % 2 ^ 18 * 2 ^ 8 := by
    rw [pack32 (by norm_num) b1, land_m26]; clear * - b1; omega
  have e3 : (a2 >>> 18 ||| u32 (a3 <<< 12)) &&& m26 = a2 / 2 ^ 18 + a3 % 2 ^ 14 * 2 ^ 12 := by
    rw [pack32 (by norm_num) b2, land_m26]; clear * - b2; omega
  have e4 : (a3 >>> 14 ||| u32 (a4 <<< 16)) &&& m26 = a3 / 2 ^ 14 + a4 % 2 ^ 10 * 2 ^ 16 := by
    rw [pack32 (by norm_num) b3, land_m26]; clear * - b3; omega
  have e5 : (a4 >>> 10 ||| u32 (a5 <<< 20)) &&& m26 = a4 / 2 ^ 10 + a5 % 2 ^ 6 * 2 ^ 20 := by
    rw [pack32 (by norm_num) b4, land_m26]; clear * - b4; omega
  have e6 : (a5 >>> 6 ||| u32 (a6 <<< 24)) &&& m26 = a5 / 2 ^ 6 + a6 % 2 ^ 2 * 2 ^ 24 := by
    rw [pack32 (by norm_num) b5, land_m26]; clear * - b5; omega
  have e7 : (a6 >>> 2) &&& m26 = a6 / 2 ^ 2 % 2 ^ 26 := by
    rw [Nat.shiftRight_eq_div_pow, land_m26]
  have e8 : (a6 >>> 28 ||| u32 (a7 <<< 2)) &&& m26 = a6 / 2 ^ 28 + a7 % 2 ^ 24 * 2 ^ 2 := by
    rw [pack32 (by norm_num) b6, land_m26]; clear * - b6; omega
  have e9 : a7 >>> 24 ||| u32 (a8 <<< 6) = a7 / 2 ^ 24 + a8 * 2 ^ 6 := by
    rw [pack32 (by norm_num) b7]; clear * - c8; omega
  have hdef : Fe10.fromSigned30 [(a0 : ℤ), (a1 : ℤ), (a2 : ℤ), (a3 : ℤ), (a4 : ℤ), (a5 : ℤ), (a6 : ℤ),
      (a7 : ℤ), (a8 : ℤ)] = ⟨a0 % 2 ^ 26, a0 / 2 ^ 26 + a1 % 2 ^ 22 * 2 ^ 4, a1 / 2 ^ 22 + a2 % 2 ^ 18 * 2 ^ 8,
      a2 / 2 ^ 18 + a3 % 2 ^ 14 * 2 ^ 12, a3 / 2 ^ 14 + a4 % 2 ^ 10 * 2 ^ 16, a4 / 2 ^ 10 + a5 % 2 ^ 6 * 2 ^ 20,
      a5 / 2 ^ 6 + a6 % 2 ^ 2 * 2 ^ 24, a6 / 2 ^ 2 % 2 ^ 26, a6 / 2 ^ 28 + a7 % 2 ^ 24 * 2 ^ 2,
      a7 / 2 ^ 24 + a8 * 2 ^ 6⟩ := by
    unfold Fe10.fromSigned30
    simp only [List.getD_cons_zero, List.getD_cons_succ, toU32_natCast b0, toU32_natCast b1,
      toU32_natCast b2, toU32_natCast b3, toU32_natCast b4, toU32_natCast b5, toU32_natCast b6,
      toU32_natCast b7, toU32_natCast b8]
    rw [e1, e2, e3, e4, e5, e6, e7, e8, e9, land_m26]
  have hn : (Fe10.fromSigned30 [(a0 : ℤ), (a1 : ℤ), (a2 : ℤ), (a3 : ℤ), (a4 : ℤ), (a5 : ℤ), (a6 : ℤ),
      (a7 : ℤ), (a8 : ℤ)]).nat = a0 + a1 * 2 ^ 30 + a2 * 2 ^ 60 + a3 * 2 ^ 90 + a4 * 2 ^ 120 + a5 * 2 ^ 150 +
      a6 * 2 ^ 180 + a7 * 2 ^ 210 + a8 * 2 ^ 240 := by
    rw [hdef]
    unfold Fe10.nat
    dsimp only
    have s0 := Nat.div_add_mod a0 (2 ^ 26)
    have s1 := Nat.div_add_mod a1 (2 ^ 22)
    have s2 := Nat.div_add_mod a2 (2 ^ 18)
    have s3 := Nat.div_add_mod a3 (2 ^ 14)
    have s4 := Nat.div_add_mod a4 (2 ^ 10)
    have s5 := Nat.div_add_mod a5 (2 ^ 6)
    have s6 : 2 ^ 28 * (a6 / 2 ^ 28) + 2 ^ 2 * (a6 / 2 ^ 2 % 2 ^ 26) + a6 % 2 ^ 2 = a6 := by
      clear * -; omega
    have s7 := Nat.div_add_mod a7 (2 ^ 24)
    generalize a0 / 2 ^ 26 = q0 at *
    generalize a0 % 2 ^ 26 = r0 at *
    generalize a1 / 2 ^ 22 = q1 at *
    generalize a1 % 2 ^ 22 = r1 at *
    generalize a2 / 2 ^ 18 = q2 at *
    generalize a2 % 2 ^ 18 = r2 at *
    generalize a3 / 2 ^ 14 = q3 at *
    generalize a3 % 2 ^ 14 = r3 at *
    generalize a4 / 2 ^ 10 = q4 at *
    generalize a4 % 2 ^ 10 = r4 at *
    generalize a5 / 2 ^ 6 = q5 at *
    generalize a5 % 2 ^ 6 = r5 at *
    generalize a6 / 2 ^ 28 = q6 at *
    generalize a6 / 2 ^ 2 % 2 ^ 26 = q6' at *
    generalize a6 % 2 ^ 2 = r6 at *
    generalize a7 / 2 ^ 24 = q7 at *
    generalize a7 % 2 ^ 24 = r7 at *
    clear * - s0 s1 s2 s3 s4 s5 s6 s7
    subst s0 s1 s2 s3 s4 s5 s6 s7
    ring
  refine ⟨⟨?_, ?_, ?_, ?_, ?_, ?_, ?_, ?_, ?_, ?_⟩, by rw [hn]⟩
  · rw [hdef]; dsimp only; clear * - b0; omega
  · rw [hdef]; dsimp only; clear * - b0; omega
  · rw [hdef]; dsimp only; clear * - b1; omega
  · rw [hdef]; dsimp only; clear * - b2; omega
  · rw [hdef]; dsimp only; clear * - b3; omega
  · rw [hdef]; dsimp only; clear * - b4; omega
  · rw [hdef]; dsimp only; clear * - b5; omega
  · rw [hdef]; dsimp only; clear * - b6; omega
  · rw [hdef]; dsimp only; clear * - b6; omega
  · rw [hn]; exact hlt'

/-- A scalar as signed limbs. -/
theorem Sc8.toSigned30_spec {a : Sc8} (h : a.Words) :
    Canon (Sc8.toSigned30 a) ∧ int30 (Sc8.toSigned30 a) = (a.nat : ℤ) := by
  obtain ⟨h0, h1, h2, h3, h4, h5, h6, h7⟩ := h
  obtain ⟨d0, d1, d2, d3, d4, d5, d6, d7⟩ := a
  dsimp only at *
  have e1 : (d0 >>> 30 ||| u32 (d1 <<< 2)) &&& m30 = d0 / 2 ^ 30 + d1 % 2 ^ 28 * 2 ^ 2 := by
    rw [pack32 (by norm_num) h0, land_m30]; clear * - h0; omega
  have e2 : (d1 >>> 28 ||| u32 (d2 <<< 4)) &&& m30 = d1 / 2 ^ 28 + d2 % 2 ^ 26 * 2 ^ 4 := by
    rw [pack32 (by norm_num) h1, land_m30]; clear * - h1; omega
  have e3 : (d2 >>> 26 ||| u32 (d3 <<< 6)) &&& m30 = d2 / 2 ^ 26 + d3 % 2 ^ 24 * 2 ^ 6 := by
    rw [pack32 (by norm_num) h2, land_m30]; clear * - h2; omega
  have e4 : (d3 >>> 24 ||| u32 (d4 <<< 8)) &&& m30 = d3 / 2 ^ 24 + d4 % 2 ^ 22 * 2 ^ 8 := by
    rw [pack32 (by norm_num) h3, land_m30]; clear * - h3; omega
  have e5 : (d4 >>> 22 ||| u32 (d5 <<< 10)) &&& m30 = d4 / 2 ^ 22 + d5 % 2 ^ 20 * 2 ^ 10 := by
    rw [pack32 (by norm_num) h4, land_m30]; clear * - h4; omega
  have e6 : (d5 >>> 20 ||| u32 (d6 <<< 12)) &&& m30 = d5 / 2 ^ 20 + d6 % 2 ^ 18 * 2 ^ 12 := by
    rw [pack32 (by norm_num) h5, land_m30]; clear * - h5; omega
  have e7 : (d6 >>> 18 ||| u32 (d7 <<< 14)) &&& m30 = d6 / 2 ^ 18 + d7 % 2 ^ 16 * 2 ^ 14 := by
    rw [pack32 (by norm_num) h6, land_m30]; clear * - h6; omega
  have e8 : d7 >>> 16 = d7 / 2 ^ 16 := Nat.shiftRight_eq_div_pow _ _
  unfold Sc8.toSigned30
  dsimp only
  rw [land_m30, e1, e2, e3, e4, e5, e6, e7, e8]
  refine ⟨⟨rfl, ?_⟩, ?_⟩
  · intro x hx
    simp only [List.mem_cons, List.not_mem_nil, or_false] at hx
    have key : ∀ y : ℕ, y < 2 ^ 30 → x = (y : ℤ) → 0 ≤ x ∧ x < 2 ^ 30 := by
      intro y hy e; omega
    rcases hx with hx | hx | hx | hx | hx | hx | hx | hx | hx <;> refine key _ ?_ hx
    · clear * -; omega
    · clear * - h0; omega
    · clear * - h1; omega
    · clear * - h2; omega
    · clear * - h3; omega
    · clear * - h4; omega
    · clear * - h5; omega
    · clear * - h6; omega
    · clear * - h7; omega
  · rw [int30_nine]
    unfold Sc8.nat
    dsimp only
    congr 1
    have s0 := Nat.div_add_mod d0 (2 ^ 30)
    have s1 := Nat.div_add_mod d1 (2 ^ 28)
    have s2 := Nat.div_add_mod d2 (2 ^ 26)
    have s3 := Nat.div_add_mod d3 (2 ^ 24)
    have s4 := Nat.div_add_mod d4 (2 ^ 22)
    have s5 := Nat.div_add_mod d5 (2 ^ 20)
    have s6 := Nat.div_add_mod d6 (2 ^ 18)
    have s7 := Nat.div_add_mod d7 (2 ^ 16)
    generalize d0 / 2 ^ 30 = q0 at *
    generalize d0 % 2 ^ 30 = r0 at *
    generalize d1 / 2 ^ 28 = q1 at *
    generalize d1 % 2 ^ 28 = r1 at *
    generalize d2 / 2 ^ 26 = q2 at *
    generalize d2 % 2 ^ 26 = r2 at *
    generalize d3 / 2 ^ 24 = q3 at *
    generalize d3 % 2 ^ 24 = r3 at *
    generalize d4 / 2 ^ 22 = q4 at *
    generalize d4 % 2 ^ 22 = r4 at *
    generalize d5 / 2 ^ 20 = q5 at *
    generalize d5 % 2 ^ 20 = r5 at *
    generalize d6 / 2 ^ 18 = q6 at *
    generalize d6 % 2 ^ 18 = r6 at *
    generalize d7 / 2 ^ 16 = q7 at *
    generalize d7 % 2 ^ 16 = r7 at *
    clear * - s0 s1 s2 s3 s4 s5 s6 s7
    subst s0 s1 s2 s3 s4 s5 s6 s7
    ring

/-- Signed limbs as a scalar. -/
theorem Sc8.fromSigned30_spec {a : List ℤ} (h : Canon a) (hlt : int30 a < 2 ^ 256) :
    (Sc8.fromSigned30 a).Words ∧ ((Sc8.fromSigned30 a).nat : ℤ) = int30 a := by
  obtain ⟨a0, a1, a2, a3, a4, a5, a6, a7, a8, b0, b1, b2, b3, b4, b5, b6, b7, b8, rfl⟩ := h.nine
  rw [int30_nine] at hlt ⊢
  have hlt' : a0 + a1 * 2 ^ 30 + a2 * 2 ^ 60 + a3 * 2 ^ 90 + a4 * 2 ^ 120 + a5 * 2 ^ 150 + a6 * 2 ^ 180 +
      a7 * 2 ^ 210 + a8 * 2 ^ 240 < 2 ^ 256 := by exact_mod_cast hlt
  have c8 : a8 < 2 ^ 16 := by clear * - hlt'; omega
  have e0 : a0 ||| u32 (a1 <<< 30) = a0 + a1 % 2 ^ 2 * 2 ^ 30 := by
    rw [u32_shl (by norm_num), or_shl b0]
  have e1 : a1 >>> 2 ||| u32 (a2 <<< 28) = a1 / 2 ^ 2 + a2 % 2 ^ 4 * 2 ^ 28 :=
    pack32 (by norm_num) b1
  have e2 : a2 >>> 4 ||| u32 (a3 <<< 26) = a2 / 2 ^ 4 + a3 % 2 ^ 6 * 2 ^ 26 :=
    pack32 (by norm_num) b2
  have e3 : a3 >>> 6 ||| u32 (a4 <<< 24) = a3 / 2 ^ 6 + a4 % 2 ^ 8 * 2 ^ 24 :=
    pack32 (by norm_num) b3
  have e4 : a4 >>> 8 ||| u32 (a5 <<< 22) = a4 / 2 ^ 8 + a5 % 2 ^ 10 * 2 ^ 22 :=
    pack32 (by norm_num) b4
  have e5 : a5 >>> 10 ||| u32 (a6 <<< 20) = a5 / 2 ^ 10 + a6 % 2 ^ 12 * 2 ^ 20 :=
    pack32 (by norm_num) b5
  have e6 : a6 >>> 12 ||| u32 (a7 <<< 18) = a6 / 2 ^ 12 + a7 % 2 ^ 14 * 2 ^ 18 :=
    pack32 (by norm_num) b6
  have e7 : a7 >>> 14 ||| u32 (a8 <<< 16) = a7 / 2 ^ 14 + a8 * 2 ^ 16 := by
    rw [pack32 (by norm_num) b7, Nat.mod_eq_of_lt c8]
  have hdef : Sc8.fromSigned30 [(a0 : ℤ), (a1 : ℤ), (a2 : ℤ), (a3 : ℤ), (a4 : ℤ), (a5 : ℤ), (a6 : ℤ),
      (a7 : ℤ), (a8 : ℤ)] = ⟨a0 + a1 % 2 ^ 2 * 2 ^ 30, a1 / 2 ^ 2 + a2 % 2 ^ 4 * 2 ^ 28,
      a2 / 2 ^ 4 + a3 % 2 ^ 6 * 2 ^ 26, a3 / 2 ^ 6 + a4 % 2 ^ 8 * 2 ^ 24, a4 / 2 ^ 8 + a5 % 2 ^ 10 * 2 ^ 22,
      a5 / 2 ^ 10 + a6 % 2 ^ 12 * 2 ^ 20, a6 / 2 ^ 12 + a7 % 2 ^ 14 * 2 ^ 18, a7 / 2 ^ 14 + a8 * 2 ^ 16⟩ := by
    unfold Sc8.fromSigned30
    simp only [List.getD_cons_zero, List.getD_cons_succ, toU32_natCast b0, toU32_natCast b1,
      toU32_natCast b2, toU32_natCast b3, toU32_natCast b4, toU32_natCast b5, toU32_natCast b6,
      toU32_natCast b7, toU32_natCast b8]
    rw [e0, e1, e2, e3, e4, e5, e6, e7]
  rw [hdef]
  refine ⟨⟨?_, ?_, ?_, ?_, ?_, ?_, ?_, ?_⟩, ?_⟩
  · dsimp only; clear * - b0; omega
  · dsimp only; clear * - b1; omega
  · dsimp only; clear * - b2; omega
  · dsimp only; clear * - b3; omega
  · dsimp only; clear * - b4; omega
  · dsimp only; clear * - b5; omega
  · dsimp only; clear * - b6; omega
  · dsimp only; clear * - b7 c8; omega
  · unfold Sc8.nat
    dsimp only
    rw [Nat.cast_inj]
    have s1 := Nat.div_add_mod a1 (2 ^ 2)
    have s2 := Nat.div_add_mod a2 (2 ^ 4)
    have s3 := Nat.div_add_mod a3 (2 ^ 6)
    have s4 := Nat.div_add_mod a4 (2 ^ 8)
    have s5 := Nat.div_add_mod a5 (2 ^ 10)
    have s6 := Nat.div_add_mod a6 (2 ^ 12)
    have s7 := Nat.div_add_mod a7 (2 ^ 14)
    generalize a1 / 2 ^ 2 = q1 at *
    generalize a1 % 2 ^ 2 = r1 at *
    generalize a2 / 2 ^ 4 = q2 at *
    generalize a2 % 2 ^ 4 = r2 at *
    generalize a3 / 2 ^ 6 = q3 at *
    generalize a3 % 2 ^ 6 = r3 at *
    generalize a4 / 2 ^ 8 = q4 at *
    generalize a4 % 2 ^ 8 = r4 at *
    generalize a5 / 2 ^ 10 = q5 at *
    generalize a5 % 2 ^ 10 = r5 at *
    generalize a6 / 2 ^ 12 = q6 at *
    generalize a6 % 2 ^ 12 = r6 at *
    generalize a7 / 2 ^ 14 = q7 at *
    generalize a7 % 2 ^ 14 = r7 at *
    clear * - s1 s2 s3 s4 s5 s6 s7
    subst s1 s2 s3 s4 s5 s6 s7
    ring

end Secp.Model
