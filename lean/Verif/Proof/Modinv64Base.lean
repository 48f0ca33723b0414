import Verif.Model.Modinv64
import Verif.Proof.DivstepBound
import Verif.Proof.Scalar4x64Ops
import Mathlib.Data.Int.ModEq

/-!
Helpers for the inversion: checked signed arithmetic, masks, and the integer matrices of division
steps.
-/

namespace Secp.Model

theorem i32?_some {x : ℤ} (h1 : -2 ^ 31 ≤ x) (h2 : x < 2 ^ 31) : i32? x = some x :=
  if_pos ⟨h1, h2⟩

theorem i64?_some {x : ℤ} (h1 : -2 ^ 63 ≤ x) (h2 : x < 2 ^ 63) : i64? x = some x :=
  if_pos ⟨h1, h2⟩

theorem i128?_some {x : ℤ} (h1 : -2 ^ 127 ≤ x) (h2 : x < 2 ^ 127) : i128? x = some x :=
  if_pos ⟨h1, h2⟩

theorem toU64_lt (x : ℤ) : toU64 x < 2 ^ 64 := by unfold toU64; omega

theorem toU64_cast (x : ℤ) : ((toU64 x : ℕ) : ℤ) = x % 2 ^ 64 := by unfold toU64; omega

theorem toI64_eq {x : ℤ} (h1 : -2 ^ 63 ≤ x) (h2 : x < 2 ^ 63) : toI64 x = x := by
  unfold toI64; omega

theorem toI32_eq {x : ℤ} (h1 : -2 ^ 31 ≤ x) (h2 : x < 2 ^ 31) : toI32 x = x := by
  unfold toI32; omega

theorem toI64_toU64 {x : ℤ} (h1 : -2 ^ 63 ≤ x) (h2 : x < 2 ^ 63) : toI64 (toU64 x : ℕ) = x := by
  rw [toU64_cast]; unfold toI64; omega

theorem toU64_neg_one : toU64 (-1) = 2 ^ 64 - 1 := by decide

theorem toU64_zero : toU64 0 = 0 := by decide

theorem sign_neg {x : ℤ} (h1 : -2 ^ 63 ≤ x) (h : x < 0) : x / 2 ^ 63 = -1 := by omega

theorem sign_nonneg {x : ℤ} (h : 0 ≤ x) (h2 : x < 2 ^ 63) : x / 2 ^ 63 = 0 := by omega

theorem and64_neg_one {x : ℤ} (h1 : -2 ^ 63 ≤ x) (h2 : x < 2 ^ 63) : and64 x (-1) = x := by
  unfold and64
  rw [toU64_neg_one, land_ones64 (toU64_lt x), toI64_toU64 h1 h2]

theorem and64_zero (x : ℤ) : and64 x 0 = 0 := by
  unfold and64
  rw [toU64_zero, Nat.and_zero]
  decide

theorem xor64_zero {x : ℤ} (h1 : -2 ^ 63 ≤ x) (h2 : x < 2 ^ 63) : xor64 x 0 = x := by
  unfold xor64
  rw [toU64_zero, Nat.xor_zero, toI64_toU64 h1 h2]

theorem xor64_neg_one {x : ℤ} (h1 : -2 ^ 63 ≤ x) (h2 : x < 2 ^ 63) : xor64 x (-1) = -x - 1 := by
  unfold xor64
  rw [toU64_neg_one, xor_ones64 (toU64_lt x)]
  have := toU64_cast x
  have := toU64_lt x
  unfold toI64
  omega

theorem land_m62 (x : ℕ) : x &&& m62 = x % 2 ^ 62 := Nat.and_two_pow_sub_one_eq_mod x 62

theorem and64_m62 (x : ℤ) : and64 x m62 = x % 2 ^ 62 := by
  unfold and64
  rw [show toU64 ((m62 : ℕ) : ℤ) = m62 by decide, land_m62]
  have := toU64_cast x
  have h2 : ((toU64 x % 2 ^ 62 : ℕ) : ℤ) = x % 2 ^ 62 := by omega
  rw [h2]
  unfold toI64
  omega

theorem toU64_land_m62 (x : ℤ) : ((i128ToU64 x &&& m62 : ℕ) : ℤ) = x % 2 ^ 62 := by
  unfold i128ToU64
  rw [land_m62]
  have := toU64_cast x
  omega

theorem or64_eq_zero {a b : ℤ} (ha1 : -2 ^ 63 ≤ a) (ha2 : a < 2 ^ 63) (hb1 : -2 ^ 63 ≤ b)
    (hb2 : b < 2 ^ 63) : or64 a b = 0 ↔ a = 0 ∧ b = 0 := by
  unfold or64
  have hlt : toU64 a ||| toU64 b < 2 ^ 64 := Nat.or_lt_two_pow (toU64_lt a) (toU64_lt b)
  have h1 := toU64_cast a
  have h2 := toU64_cast b
  constructor
  · intro h
    have h0 : toU64 a ||| toU64 b = 0 := by unfold toI64 at h; omega
    rw [Nat.or_eq_zero_iff] at h0
    omega
  · rintro ⟨rfl, rfl⟩
    decide

theorem or64_range (a b : ℤ) : -2 ^ 63 ≤ or64 a b ∧ or64 a b < 2 ^ 63 := by
  unfold or64 toI64; omega

theorem xor64_range (a b : ℤ) : -2 ^ 63 ≤ xor64 a b ∧ xor64 a b < 2 ^ 63 := by
  unfold xor64 toI64; omega

/-! ### Words congruent to integers -/

/-- The word `a` agrees with the integer `x` in its lowest `k` bits. -/
def Cong (k : ℕ) (a : ℕ) (x : ℤ) : Prop := (a : ℤ) ≡ x [ZMOD 2 ^ k]

namespace Cong

variable {k : ℕ} {a b : ℕ} {x y : ℤ}

theorem mono {j : ℕ} (h : Cong k a x) (hj : j ≤ k) : Cong j a x :=
  Int.ModEq.of_dvd (pow_dvd_pow 2 hj) h

theorem u64 (h : Cong k a x) (hk : k ≤ 64) : Cong k (u64 a) x := by
  unfold Model.u64
  refine Int.ModEq.trans ?_ h
  have h64 : ((a % 2 ^ 64 : ℕ) : ℤ) ≡ a [ZMOD 2 ^ 64] := by
    push_cast
    exact Int.mod_modEq _ _
  exact Int.ModEq.of_dvd (pow_dvd_pow 2 hk) h64

theorem add (h : Cong k a x) (h' : Cong k b y) : Cong k (a + b) (x + y) := by
  unfold Cong
  push_cast
  exact Int.ModEq.add h h'

theorem mul (h : Cong k a x) (h' : Cong k b y) : Cong k (a * b) (x * y) := by
  unfold Cong
  push_cast
  exact Int.ModEq.mul h h'

theorem pow64 (hk : k ≤ 64) : Cong k (2 ^ 64) 0 := by
  unfold Cong
  exact (Int.modEq_zero_iff_dvd).mpr (by exact_mod_cast pow_dvd_pow 2 hk)

theorem neg (h : Cong k a x) (ha : a ≤ 2 ^ 64) (hk : k ≤ 64) : Cong k (2 ^ 64 - a) (-x) := by
  unfold Cong
  rw [Nat.cast_sub ha]
  have := Int.ModEq.sub (pow64 hk) h
  simpa using this

theorem congr (h : Cong k a x) (e : x = y) : Cong k a y := e ▸ h

theorem parity (h : Cong k a x) (hk : 1 ≤ k) : (a : ℤ) % 2 = x % 2 := by
  have := h.mono hk
  unfold Cong at this
  simpa [Int.ModEq] using this

theorem half (h : Cong (k + 1) (2 * a) (2 * x)) : Cong k a x := by
  unfold Cong at h ⊢
  rw [Int.modEq_iff_dvd] at h ⊢
  push_cast at h
  rw [← mul_sub, pow_succ, mul_comm _ (2 : ℤ)] at h
  exact (Int.mul_dvd_mul_iff_left (by norm_num)).mp h

theorem halves (h : Cong (k + 1) a x) (hx : x % 2 = 0) : Cong k (a >>> 1) (x / 2) := by
  have hp := h.parity (by omega)
  refine half ?_
  rw [Nat.shiftRight_eq_div_pow]
  have e1 : 2 * (a / 2 ^ 1) = a := by omega
  have e2 : 2 * (x / 2) = x := by omega
  rw [e1, e2]
  exact h

theorem of_eq (h : (a : ℤ) = x) : Cong k a x := by unfold Cong; rw [h]

end Cong

theorem cong_toU64 (x : ℤ) {k : ℕ} (hk : k ≤ 64) : Cong k (toU64 x) x := by
  unfold Cong
  rw [toU64_cast]
  exact Int.ModEq.of_dvd (pow_dvd_pow 2 hk) (Int.mod_modEq _ _)

/-- A word that agrees in all bits with a signed number is its representation. -/
theorem Cong.toI64 {a : ℕ} {x : ℤ} (h : Cong 64 a x) (h1 : -2 ^ 63 ≤ x) (h2 : x < 2 ^ 63) :
    toI64 a = x := by
  unfold Cong Int.ModEq at h
  unfold Model.toI64
  omega

end Secp.Model

namespace Secp.Divstep

/-- A state together with the matrix that leads to it. -/
structure MS where
  s : DS
  u : ℤ
  v : ℤ
  q : ℤ
  r : ℤ

/-- One division step on state and matrix. -/
def mstep (κ : ℤ) (m : MS) : MS :=
  if m.s.g % 2 = 0 then ⟨divstep κ m.s, 2 * m.u, 2 * m.v, m.q, m.r⟩
  else if m.s.z < 0 then ⟨divstep κ m.s, 2 * m.q, 2 * m.r, m.q - m.u, m.r - m.v⟩
  else ⟨divstep κ m.s, 2 * m.u, 2 * m.v, m.q + m.u, m.r + m.v⟩

/-- `j` division steps from the identity matrix. -/
def mrun (κ : ℤ) (j : ℕ) (s : DS) : MS := (mstep κ)^[j] ⟨s, 1, 0, 0, 1⟩

theorem mrun_succ (κ : ℤ) (j : ℕ) (s : DS) : mrun κ (j + 1) s = mstep κ (mrun κ j s) :=
  Function.iterate_succ_apply' _ _ _

theorem mstep_s (κ : ℤ) (m : MS) : (mstep κ m).s = divstep κ m.s := by
  unfold mstep; split <;> [rfl; (split <;> rfl)]

theorem mrun_s (κ : ℤ) (j : ℕ) (s : DS) : (mrun κ j s).s = run κ j s := by
  induction j with
  | zero => rfl
  | succ j ih => rw [mrun_succ, mstep_s, ih, run_succ']

/-- What the matrix is. -/
structure MInv (F G : ℤ) (j : ℕ) (m : MS) : Prop where
  f : 2 ^ j * m.s.f = m.u * F + m.v * G
  g : 2 ^ j * m.s.g = m.q * F + m.r * G
  uv : |m.u| + |m.v| ≤ 2 ^ j
  qr : |m.q| + |m.r| ≤ 2 ^ j
  odd : m.s.f % 2 = 1

theorem mrun_inv (κ : ℤ) {z F G : ℤ} (hF : F % 2 = 1) (j : ℕ) :
    MInv F G j (mrun κ j ⟨z, F, G⟩) := by
  induction j with
  | zero => exact ⟨by simp [mrun], by simp [mrun], by simp [mrun], by simp [mrun], by simpa [mrun] using hF⟩
  | succ j ih =>
    rw [mrun_succ]
    set m := mrun κ j ⟨z, F, G⟩
    obtain ⟨h1, h2, h3, h4, h5⟩ := ih
    unfold mstep
    by_cases c1 : m.s.g % 2 = 0
    · rw [if_pos c1]
      have e : divstep κ m.s = ⟨m.s.z - 1, m.s.f, m.s.g / 2⟩ := by unfold divstep; rw [if_pos c1]
      have e2 : 2 * (m.s.g / 2) = m.s.g := by omega
      rw [e]
      refine ⟨?_, ?_, ?_, ?_, h5⟩
      · dsimp only; rw [pow_succ]; linear_combination 2 * h1
      · dsimp only; rw [pow_succ]; linear_combination h2 + (2 : ℤ) ^ j * e2
      · dsimp only; rw [abs_mul, abs_mul, pow_succ]; norm_num; linarith
      · dsimp only
        exact h4.trans (pow_le_pow_right₀ (by norm_num) (by omega))
    · rw [if_neg c1]
      by_cases c2 : m.s.z < 0
      · rw [if_pos c2]
        have e : divstep κ m.s = ⟨-m.s.z - κ, m.s.g, (m.s.g - m.s.f) / 2⟩ := by
          unfold divstep; rw [if_neg c1, if_pos c2]
        have e2 : 2 * ((m.s.g - m.s.f) / 2) = m.s.g - m.s.f := by omega
        rw [e]
        refine ⟨?_, ?_, ?_, ?_, ?_⟩
        · dsimp only; rw [pow_succ]; linear_combination 2 * h2
        · dsimp only; rw [pow_succ]; linear_combination h2 - h1 + (2 : ℤ) ^ j * e2
        · dsimp only; rw [abs_mul, abs_mul, pow_succ]; norm_num; linarith
        · dsimp only; rw [pow_succ]
          have := abs_sub m.q m.u
          have := abs_sub m.r m.v
          linarith
        · dsimp only; omega
      · rw [if_neg c2]
        have e : divstep κ m.s = ⟨m.s.z - 1, m.s.f, (m.s.g + m.s.f) / 2⟩ := by
          unfold divstep; rw [if_neg c1, if_neg c2]
        have e2 : 2 * ((m.s.g + m.s.f) / 2) = m.s.g + m.s.f := by omega
        rw [e]
        refine ⟨?_, ?_, ?_, ?_, h5⟩
        · dsimp only; rw [pow_succ]; linear_combination 2 * h1
        · dsimp only; rw [pow_succ]; linear_combination h2 + h1 + (2 : ℤ) ^ j * e2
        · dsimp only; rw [abs_mul, abs_mul, pow_succ]; norm_num; linarith
        · dsimp only; rw [pow_succ]
          have := abs_add_le m.q m.u
          have := abs_add_le m.r m.v
          linarith

/-- A matrix row of bounded size does not make numbers larger. -/
theorem row_bound {u v F G x B : ℤ} {j : ℕ} (h : 2 ^ j * x = u * F + v * G)
    (huv : |u| + |v| ≤ 2 ^ j) (hF : |F| ≤ B) (hG : |G| ≤ B) : |x| ≤ B := by
  have hp : (0 : ℤ) < 2 ^ j := by positivity
  have h1 : 2 ^ j * |x| ≤ 2 ^ j * B := by
    calc 2 ^ j * |x| = |u * F + v * G| := by rw [← h, abs_mul, abs_of_pos hp]
      _ ≤ |u| * |F| + |v| * |G| := by rw [← abs_mul, ← abs_mul]; exact abs_add_le _ _
      _ ≤ |u| * B + |v| * B := add_le_add (mul_le_mul_of_nonneg_left hF (abs_nonneg _))
          (mul_le_mul_of_nonneg_left hG (abs_nonneg _))
      _ = (|u| + |v|) * B := by ring
      _ ≤ 2 ^ j * B := mul_le_mul_of_nonneg_right huv ((abs_nonneg _).trans hF)
  exact le_of_mul_le_mul_left h1 hp

/-- Common divisors come from common divisors. -/
theorem run_dvd (κ : ℤ) (j : ℕ) {s : DS} (hf : s.f % 2 = 1) {d : ℤ} (h1 : d ∣ (run κ j s).f)
    (h2 : d ∣ (run κ j s).g) : d ∣ s.f ∧ d ∣ s.g := by
  induction j generalizing s with
  | zero => exact ⟨h1, h2⟩
  | succ j ih =>
    rw [run_succ] at h1 h2
    unfold divstep at h1 h2
    by_cases c1 : s.g % 2 = 0
    · rw [if_pos c1] at h1 h2
      obtain ⟨a, b⟩ := ih (s := ⟨s.z - 1, s.f, s.g / 2⟩) hf h1 h2
      refine ⟨a, ?_⟩
      have : s.g = 2 * (s.g / 2) := by omega
      rw [this]; exact Dvd.dvd.mul_left b 2
    · rw [if_neg c1] at h1 h2
      by_cases c2 : s.z < 0
      · rw [if_pos c2] at h1 h2
        obtain ⟨a, b⟩ := ih (s := ⟨-s.z - κ, s.g, (s.g - s.f) / 2⟩) (by dsimp only; omega) h1 h2
        refine ⟨?_, a⟩
        have : s.f = s.g - 2 * ((s.g - s.f) / 2) := by omega
        rw [this]; exact dvd_sub a (Dvd.dvd.mul_left b 2)
      · rw [if_neg c2] at h1 h2
        obtain ⟨a, b⟩ := ih (s := ⟨s.z - 1, s.f, (s.g + s.f) / 2⟩) hf h1 h2
        refine ⟨a, ?_⟩
        have : s.g = 2 * ((s.g + s.f) / 2) - s.f := by omega
        rw [this]; exact dvd_sub (Dvd.dvd.mul_left b 2) a

/-- The counter moves by at most one per step (two for the swap of the constant-time variant). -/
theorem run_z {κ : ℤ} (hκ : κ = 1 ∨ κ = 2) (j : ℕ) {s : DS} :
    |(run κ j s).z| ≤ |s.z| + j := by
  induction j with
  | zero => simp [run_zero]
  | succ j ih =>
    rw [run_succ']
    set t := run κ j s
    push_cast
    unfold divstep
    by_cases c1 : t.g % 2 = 0
    · rw [if_pos c1]; dsimp only; rw [abs_le] at *; omega
    · rw [if_neg c1]
      by_cases c2 : t.z < 0
      · rw [if_pos c2]; dsimp only; rw [abs_le] at *; omega
      · rw [if_neg c2]; dsimp only; rw [abs_le] at *; omega

/-- With `g = 0` the matrix only doubles its first row. -/
theorem mrun_zero (κ : ℤ) (j : ℕ) (z f : ℤ) :
    mrun κ j ⟨z, f, 0⟩ = ⟨⟨z - j, f, 0⟩, 2 ^ j, 0, 0, 1⟩ := by
  induction j with
  | zero => simp [mrun]
  | succ j ih =>
    rw [mrun_succ, ih]
    unfold mstep divstep
    simp only [EuclideanDomain.zero_mod, ↓reduceIte, Int.zero_ediv, mul_zero]
    congr 1
    · congr 1; push_cast; ring
    · ring

end Secp.Divstep
