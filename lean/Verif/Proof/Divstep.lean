import Mathlib.Tactic.Ring
import Mathlib.Tactic.Linarith
import Mathlib.Tactic.LinearCombination
import Mathlib.Tactic.NormNum
import Mathlib.Data.Rat.Cast.Order
import Mathlib.Algebra.Order.Field.Rat
import Mathlib.Algebra.Order.Field.Basic
import Mathlib.Tactic.FieldSimp
import Mathlib.Tactic.Positivity
import Mathlib.Logic.Function.Iterate

/-!
Division steps on integers and a certificate for how many of them reach `g = 0`.

The C code comes in two variants (doc/safegcd_implementation.md): the constant-time one counts
`zeta = -(delta + 1/2)` and the variable-time one `eta = -delta`.  Both swap when the counter is
negative; the swap turns the counter `z` into `-z - κ`, with `κ = 2` and `κ = 1` respectively.

Between two visits of `z = -1` the pair `(f, g)`, `g = 2^k h` with `h` odd, is mapped to
`(h, ((2 w + 1) h - f) / 2^(m+1))` with `m = k + 2 - κ` and `0 ≤ w < 2^m`, in `k + 1 + m` steps.
A polygon norm (a list of linear functionals) shrinks by at least a factor `ρ` per step along every
such map; that is a finite check plus a tail estimate.
-/

namespace Secp.Divstep

/-- Counter, `f` and `g`. -/
structure DS where
  z : ℤ
  f : ℤ
  g : ℤ

@[ext] theorem DS.ext' {a b : DS} (h1 : a.z = b.z) (h2 : a.f = b.f) (h3 : a.g = b.g) : a = b := by
  cases a; cases b; simp_all

/-- One division step (doc/safegcd_implementation.md:13-60). -/
def divstep (κ : ℤ) (s : DS) : DS :=
  if s.g % 2 = 0 then ⟨s.z - 1, s.f, s.g / 2⟩
  else if s.z < 0 then ⟨-s.z - κ, s.g, (s.g - s.f) / 2⟩
  else ⟨s.z - 1, s.f, (s.g + s.f) / 2⟩

/-- `j` division steps. -/
def run (κ : ℤ) (j : ℕ) (s : DS) : DS := (divstep κ)^[j] s

theorem run_zero (κ : ℤ) (s : DS) : run κ 0 s = s := rfl

theorem run_succ (κ : ℤ) (j : ℕ) (s : DS) : run κ (j + 1) s = run κ j (divstep κ s) := rfl

theorem run_succ' (κ : ℤ) (j : ℕ) (s : DS) : run κ (j + 1) s = divstep κ (run κ j s) :=
  Function.iterate_succ_apply' _ _ _

theorem run_add (κ : ℤ) (i j : ℕ) (s : DS) : run κ (i + j) s = run κ j (run κ i s) := by
  rw [run, Nat.add_comm, Function.iterate_add_apply]; rfl

theorem divstep_even {κ : ℤ} {z f g : ℤ} : divstep κ ⟨z, f, 2 * g⟩ = ⟨z - 1, f, g⟩ := by
  unfold divstep
  simp

/-- Only halvings. -/
theorem run_halve (κ : ℤ) (k : ℕ) (z f h : ℤ) :
    run κ k ⟨z, f, 2 ^ k * h⟩ = ⟨z - k, f, h⟩ := by
  induction k generalizing z with
  | zero => simp [run_zero]
  | succ k ih =>
    rw [run_succ, show (2 : ℤ) ^ (k + 1) * h = 2 * (2 ^ k * h) by ring, divstep_even, ih]
    ext <;> simp
    ring

/-- Once `g` is zero it stays zero. -/
theorem run_g_zero (κ : ℤ) (k : ℕ) (z f : ℤ) : run κ k ⟨z, f, 0⟩ = ⟨z - k, f, 0⟩ := by
  have := run_halve κ k z f 0
  simpa using this

/-- While the counter is not negative, `f` is kept and multiples of it are added to `g`. -/
theorem run_add_multiple (κ : ℤ) (L : ℕ) {z f g : ℤ} (hf : f % 2 = 1) (hz : (L : ℤ) ≤ z + 1) :
    ∃ w g' : ℤ, 0 ≤ w ∧ w < 2 ^ L ∧ 2 ^ L * g' = g + w * f ∧ run κ L ⟨z, f, g⟩ = ⟨z - L, f, g'⟩ := by
  induction L generalizing z g with
  | zero => exact ⟨0, g, le_refl _, by norm_num, by ring, by simp [run_zero]⟩
  | succ L ih =>
    push_cast at hz
    have hpos : (0 : ℤ) < 2 ^ L := by positivity
    by_cases hg : g % 2 = 0
    · obtain ⟨w, g', h0, h1, h2, h3⟩ := ih (z := z - 1) (g := g / 2) (by omega)
      have e2 : 2 * (g / 2) = g := by omega
      refine ⟨2 * w, g', by omega, by rw [pow_succ]; omega, ?_, ?_⟩
      · rw [pow_succ]
        linear_combination 2 * h2 + e2
      · rw [run_succ]
        have : divstep κ ⟨z, f, g⟩ = ⟨z - 1, f, g / 2⟩ := by
          unfold divstep; rw [if_pos hg]
        rw [this, h3]
        ext <;> simp
        ring
    · obtain ⟨w, g', h0, h1, h2, h3⟩ := ih (z := z - 1) (g := (g + f) / 2) (by omega)
      have e2 : 2 * ((g + f) / 2) = g + f := by omega
      refine ⟨2 * w + 1, g', by omega, by rw [pow_succ]; omega, ?_, ?_⟩
      · rw [pow_succ]
        linear_combination 2 * h2 + e2
      · rw [run_succ]
        have : divstep κ ⟨z, f, g⟩ = ⟨z - 1, f, (g + f) / 2⟩ := by
          unfold divstep; rw [if_neg hg, if_neg (by dsimp only; omega)]
        rw [this, h3]
        ext <;> simp
        ring

/-- One round from `z = -1` back to `z = -1`. -/
theorem run_round {κ : ℤ} {k m : ℕ} (hm : (m : ℤ) = k + 2 - κ) {f h : ℤ} (hf : f % 2 = 1)
    (hh : h % 2 = 1) :
    ∃ c g' : ℤ, 1 ≤ c ∧ c ≤ 2 ^ (m + 1) - 1 ∧ 2 ^ (m + 1) * g' = c * h - f ∧
      run κ (k + 1 + m) ⟨-1, f, 2 ^ k * h⟩ = ⟨-1, h, g'⟩ := by
  rw [run_add, run_add, run_halve]
  have e1 : run κ 1 ⟨-1 - k, f, h⟩ = ⟨1 + k - κ, h, (h - f) / 2⟩ := by
    rw [run_succ, run_zero]
    unfold divstep
    rw [if_neg (by dsimp only; omega), if_pos (by dsimp only; omega)]
    ext <;> simp
    ring
  rw [e1]
  obtain ⟨w, g', h0, h1, h2, h3⟩ :=
    run_add_multiple κ m (z := 1 + k - κ) (f := h) (g := (h - f) / 2) hh (by omega)
  have e2 : 2 * ((h - f) / 2) = h - f := by omega
  refine ⟨2 * w + 1, g', by omega, by rw [pow_succ]; omega, ?_, ?_⟩
  · rw [pow_succ]
    linear_combination 2 * h2 + e2
  · rw [h3]
    ext <;> simp
    omega

/-! ### The polygon norm -/

/-- All functionals are at most `B` in absolute value. -/
def Inside (N : List (ℤ × ℤ)) (B : ℚ) (f g : ℤ) : Prop :=
  ∀ v ∈ N, |((v.1 * f + v.2 * g : ℤ) : ℚ)| ≤ B

/-- `|al f + be g| * den ≤ num * B` follows from two adjacent functionals. -/
def cone (n1 n2 : ℤ × ℤ) (al be : ℤ) (num den : ℤ) : Bool :=
  let det := n1.1 * n2.2 - n2.1 * n1.2
  decide (det ≠ 0) &&
    decide ((|al * n2.2 - be * n2.1| + |n1.1 * be - n1.2 * al|) * den ≤ num * |det|)

/-- Search of the two functionals. -/
def coneAny (N : List (ℤ × ℤ)) (al be num den : ℤ) : Bool :=
  (N.zip (N.rotateLeft 1)).any fun x => cone x.1 x.2 al be num den

theorem cone_sound {n1 n2 : ℤ × ℤ} {al be num den : ℤ} (hc : cone n1 n2 al be num den = true)
    (hd : 0 ≤ den) {B : ℚ} {f g : ℤ} (h1 : |((n1.1 * f + n1.2 * g : ℤ) : ℚ)| ≤ B)
    (h2 : |((n2.1 * f + n2.2 * g : ℤ) : ℚ)| ≤ B) :
    |((al * f + be * g : ℤ) : ℚ)| * den ≤ num * B := by
  unfold cone at hc
  simp only [Bool.and_eq_true, decide_eq_true_eq] at hc
  obtain ⟨hdet, hle⟩ := hc
  set det := n1.1 * n2.2 - n2.1 * n1.2 with hdd
  set x := al * n2.2 - be * n2.1 with hx
  set y := n1.1 * be - n1.2 * al with hy
  have hB : 0 ≤ B := le_trans (abs_nonneg _) h1
  have key : det * (al * f + be * g) = x * (n1.1 * f + n1.2 * g) + y * (n2.1 * f + n2.2 * g) := by
    rw [hdd, hx, hy]; ring
  have keyq : (det : ℚ) * ((al * f + be * g : ℤ) : ℚ) =
      (x : ℚ) * ((n1.1 * f + n1.2 * g : ℤ) : ℚ) + (y : ℚ) * ((n2.1 * f + n2.2 * g : ℤ) : ℚ) := by
    exact_mod_cast key
  have hdetq : 0 < |(det : ℚ)| := abs_pos.mpr (by exact_mod_cast hdet)
  have hleq : (|(x : ℚ)| + |(y : ℚ)|) * den ≤ num * |(det : ℚ)| := by exact_mod_cast hle
  have hdq : (0 : ℚ) ≤ den := by exact_mod_cast hd
  have hab : |(det : ℚ)| * |((al * f + be * g : ℤ) : ℚ)| ≤ (|(x : ℚ)| + |(y : ℚ)|) * B := by
    rw [← abs_mul, keyq]
    refine (abs_add_le _ _).trans ?_
    rw [abs_mul, abs_mul, add_mul]
    exact add_le_add (mul_le_mul_of_nonneg_left h1 (abs_nonneg _))
      (mul_le_mul_of_nonneg_left h2 (abs_nonneg _))
  have : |(det : ℚ)| * (|((al * f + be * g : ℤ) : ℚ)| * den) ≤ |(det : ℚ)| * (num * B) := by
    calc |(det : ℚ)| * (|((al * f + be * g : ℤ) : ℚ)| * den)
        = (|(det : ℚ)| * |((al * f + be * g : ℤ) : ℚ)|) * den := by ring
      _ ≤ ((|(x : ℚ)| + |(y : ℚ)|) * B) * den := mul_le_mul_of_nonneg_right hab hdq
      _ = ((|(x : ℚ)| + |(y : ℚ)|) * den) * B := by ring
      _ ≤ (num * |(det : ℚ)|) * B := mul_le_mul_of_nonneg_right hleq hB
      _ = |(det : ℚ)| * (num * B) := by ring
  exact le_of_mul_le_mul_left this hdetq

theorem coneAny_sound {N : List (ℤ × ℤ)} {al be num den : ℤ}
    (hc : coneAny N al be num den = true) (hd : 0 ≤ den) {B : ℚ} {f g : ℤ} (h : Inside N B f g) :
    |((al * f + be * g : ℤ) : ℚ)| * den ≤ num * B := by
  unfold coneAny at hc
  rw [List.any_eq_true] at hc
  obtain ⟨x, hx, hcx⟩ := hc
  have hx' := List.of_mem_zip (a := x.1) (b := x.2) hx
  have hr : ∀ a ∈ N.rotateLeft 1, a ∈ N := by
    intro a ha
    unfold List.rotateLeft at ha
    dsimp only at ha
    split at ha
    · exact ha
    · rw [List.mem_append] at ha
      rcases ha with ha | ha
      · exact List.mem_of_mem_drop ha
      · exact List.mem_of_mem_take ha
  exact cone_sound hcx hd (h _ hx'.1) (h _ (hr _ hx'.2))

/-- The finite part of the certificate: one round with parameters `k`, `m` and multiplier `c`. -/
def roundCheck (N : List (ℤ × ℤ)) (rn rd : ℤ) (k m : ℕ) (c : ℤ) : Bool :=
  N.all fun v => coneAny N (-(v.2 * 2 ^ k)) (v.1 * 2 ^ (m + 1) + v.2 * c)
    (rn ^ (k + 1 + m) * 2 ^ (k + m + 1)) (rd ^ (k + 1 + m))

theorem roundCheck_sound {N : List (ℤ × ℤ)} {rn rd : ℤ} (hrd : 0 < rd) {k m : ℕ} {c : ℤ}
    (hc : roundCheck N rn rd k m c = true) {B : ℚ} {f h : ℤ} (hi : Inside N B f (2 ^ k * h)) :
    ∀ v ∈ N, |((v.1 * (2 ^ (m + 1) * h) + v.2 * (c * h - f) : ℤ) : ℚ)| ≤
      2 ^ (m + 1) * ((rn : ℚ) / rd) ^ (k + 1 + m) * B := by
  intro v hv
  unfold roundCheck at hc
  rw [List.all_eq_true] at hc
  have hp : (0 : ℤ) < rd ^ (k + 1 + m) := by positivity
  have h1 := coneAny_sound (hc v hv) hp.le hi
  have e : -(v.2 * 2 ^ k) * f + (v.1 * 2 ^ (m + 1) + v.2 * c) * (2 ^ k * h) =
      2 ^ k * (v.1 * (2 ^ (m + 1) * h) + v.2 * (c * h - f)) := by ring
  rw [e] at h1
  push_cast at h1 ⊢
  rw [abs_mul, abs_of_pos (by positivity : (0 : ℚ) < 2 ^ k)] at h1
  set A := |(v.1 : ℚ) * (2 ^ (m + 1) * h) + v.2 * (c * h - f)|
  have hpq : (0 : ℚ) < (rd : ℚ) ^ (k + 1 + m) := by
    have : (0 : ℚ) < rd := by exact_mod_cast hrd
    positivity
  rw [div_pow]
  have h2 : (2 : ℚ) ^ k * (A * (rd : ℚ) ^ (k + 1 + m)) ≤
      2 ^ k * ((2 ^ (m + 1) * (rn : ℚ) ^ (k + 1 + m)) * B) := by
    calc (2 : ℚ) ^ k * (A * (rd : ℚ) ^ (k + 1 + m)) = 2 ^ k * A * rd ^ (k + 1 + m) := by ring
      _ ≤ (rn : ℚ) ^ (k + 1 + m) * 2 ^ (k + m + 1) * B := h1
      _ = 2 ^ k * ((2 ^ (m + 1) * (rn : ℚ) ^ (k + 1 + m)) * B) := by ring
  have h3 := le_of_mul_le_mul_left h2 (by positivity)
  rw [show (2 : ℚ) ^ (m + 1) * ((rn : ℚ) ^ (k + 1 + m) / rd ^ (k + 1 + m)) * B =
    ((2 ^ (m + 1) * (rn : ℚ) ^ (k + 1 + m)) * B) / rd ^ (k + 1 + m) by ring]
  exact (le_div_iff₀ hpq).mpr h3

/-- Between two multipliers the functional is between its end values. -/
theorem between {x y c lo hi M : ℚ} (h1 : lo ≤ c) (h2 : c ≤ hi) (ha : |x + lo * y| ≤ M)
    (hb : |x + hi * y| ≤ M) : |x + c * y| ≤ M := by
  rw [abs_le] at *
  rcases le_total 0 y with h | h
  · constructor
    · nlinarith [mul_le_mul_of_nonneg_right h1 h]
    · nlinarith [mul_le_mul_of_nonneg_right h2 h]
  · constructor
    · nlinarith [mul_le_mul_of_nonpos_right h2 h]
    · nlinarith [mul_le_mul_of_nonpos_right h1 h]

/-- One round shrinks the norm, from the checks at the two extreme multipliers. -/
theorem round_inside {N : List (ℤ × ℤ)} {rn rd : ℤ} (hrd : 0 < rd) {k m : ℕ}
    (h1 : roundCheck N rn rd k m 1 = true)
    (h2 : roundCheck N rn rd k m (2 ^ (m + 1) - 1) = true) {B : ℚ} {f h c g' : ℤ}
    (hi : Inside N B f (2 ^ k * h)) (hc1 : 1 ≤ c) (hc2 : c ≤ 2 ^ (m + 1) - 1)
    (hg : 2 ^ (m + 1) * g' = c * h - f) :
    Inside N (((rn : ℚ) / rd) ^ (k + 1 + m) * B) h g' := by
  intro v hv
  have a1 := roundCheck_sound hrd h1 hi v hv
  have a2 := roundCheck_sound hrd h2 hi v hv
  have b := between (x := v.1 * (2 ^ (m + 1) * h) - v.2 * f) (y := v.2 * h) (c := c) (lo := 1)
    (hi := 2 ^ (m + 1) - 1) (M := 2 ^ (m + 1) * ((rn : ℚ) / rd) ^ (k + 1 + m) * B)
    (by exact_mod_cast hc1) (by exact_mod_cast hc2)
    (by refine le_trans (le_of_eq ?_) a1; push_cast; congr 1; ring)
    (by refine le_trans (le_of_eq ?_) a2; push_cast; congr 1; ring)
  have hgq : (2 : ℚ) ^ (m + 1) * g' = c * h - f := by exact_mod_cast hg
  have e : (v.1 : ℚ) * (2 ^ (m + 1) * h) - v.2 * f + c * (v.2 * h) =
      2 ^ (m + 1) * ((v.1 * h + v.2 * g' : ℤ) : ℚ) := by
    push_cast
    linear_combination (-(v.2 : ℚ)) * hgq
  rw [e, abs_mul, abs_of_pos (by positivity : (0 : ℚ) < 2 ^ (m + 1)), mul_assoc] at b
  exact le_of_mul_le_mul_left b (by positivity)

/-- Rounds with a large `k` shrink the norm by a crude estimate. -/
theorem round_tail {N : List (ℤ × ℤ)} {ρ F G C B : ℚ} {k m : ℕ} {f h c g' : ℤ} (hkm : k ≤ m)
    (hB : 0 ≤ B) (hG : 0 ≤ G)
    (hF : |(f : ℚ)| ≤ F * B) (hGg : |((2 ^ k * h : ℤ) : ℚ)| ≤ G * B)
    (hC : ∀ v ∈ N, |(v.1 : ℚ)| * G + |(v.2 : ℚ)| * (G + F / 2) ≤ C)
    (hk : C ≤ 2 ^ k * ρ ^ (k + 1 + m))
    (hc1 : 1 ≤ c) (hc2 : c ≤ 2 ^ (m + 1) - 1) (hg : 2 ^ (m + 1) * g' = c * h - f) :
    Inside N (ρ ^ (k + 1 + m) * B) h g' := by
  intro v hv
  have p1 : (0 : ℚ) < 2 ^ (m + 1) := by positivity
  have p2 : (0 : ℚ) < 2 ^ k := by positivity
  have hh : 2 ^ k * |(h : ℚ)| ≤ G * B := by
    push_cast at hGg
    rwa [abs_mul, abs_of_pos p2] at hGg
  have hgq : (2 : ℚ) ^ (m + 1) * g' = c * h - f := by exact_mod_cast hg
  have hcq : |(c : ℚ)| ≤ 2 ^ (m + 1) := by
    have h1 : (1 : ℚ) ≤ c := by exact_mod_cast hc1
    have h2 : (c : ℚ) ≤ 2 ^ (m + 1) - 1 := by exact_mod_cast hc2
    rw [abs_le]
    constructor <;> linarith
  have hg1 : 2 ^ (m + 1) * |(g' : ℚ)| ≤ 2 ^ (m + 1) * |(h : ℚ)| + F * B := by
    rw [← abs_of_pos p1, ← abs_mul, abs_of_pos p1, hgq]
    refine (abs_sub _ _).trans ?_
    rw [abs_mul]
    exact add_le_add (mul_le_mul_of_nonneg_right hcq (abs_nonneg _)) hF
  have hkm' : (2 : ℚ) ^ (k + 1) ≤ 2 ^ (m + 1) := pow_le_pow_right₀ (by norm_num) (by omega)
  have hFB : 0 ≤ F * B := le_trans (abs_nonneg _) hF
  have hg2 : 2 ^ k * |(g' : ℚ)| ≤ (G + F / 2) * B := by
    have : 2 ^ (m + 1) * (2 ^ k * |(g' : ℚ)|) ≤ 2 ^ (m + 1) * ((G + F / 2) * B) := by
      calc 2 ^ (m + 1) * (2 ^ k * |(g' : ℚ)|) = 2 ^ k * (2 ^ (m + 1) * |(g' : ℚ)|) := by ring
        _ ≤ 2 ^ k * (2 ^ (m + 1) * |(h : ℚ)| + F * B) := mul_le_mul_of_nonneg_left hg1 p2.le
        _ = 2 ^ (m + 1) * (2 ^ k * |(h : ℚ)|) + 2 ^ (k + 1) * (F * B / 2) := by ring
        _ ≤ 2 ^ (m + 1) * (G * B) + 2 ^ (m + 1) * (F * B / 2) := by
          refine add_le_add (mul_le_mul_of_nonneg_left hh p1.le)
            (mul_le_mul_of_nonneg_right hkm' (by linarith))
        _ = 2 ^ (m + 1) * ((G + F / 2) * B) := by ring
    exact le_of_mul_le_mul_left this p1
  have hfin : 2 ^ k * |((v.1 * h + v.2 * g' : ℤ) : ℚ)| ≤ 2 ^ k * (ρ ^ (k + 1 + m) * B) := by
    push_cast
    calc 2 ^ k * |(v.1 : ℚ) * h + v.2 * g'|
        ≤ 2 ^ k * (|(v.1 : ℚ)| * |(h : ℚ)| + |(v.2 : ℚ)| * |(g' : ℚ)|) := by
          refine mul_le_mul_of_nonneg_left ?_ p2.le
          refine (abs_add_le _ _).trans ?_
          rw [abs_mul, abs_mul]
      _ = |(v.1 : ℚ)| * (2 ^ k * |(h : ℚ)|) + |(v.2 : ℚ)| * (2 ^ k * |(g' : ℚ)|) := by ring
      _ ≤ |(v.1 : ℚ)| * (G * B) + |(v.2 : ℚ)| * ((G + F / 2) * B) :=
          add_le_add (mul_le_mul_of_nonneg_left hh (abs_nonneg _))
            (mul_le_mul_of_nonneg_left hg2 (abs_nonneg _))
      _ = (|(v.1 : ℚ)| * G + |(v.2 : ℚ)| * (G + F / 2)) * B := by ring
      _ ≤ C * B := mul_le_mul_of_nonneg_right (hC v hv) hB
      _ ≤ (2 ^ k * ρ ^ (k + 1 + m)) * B := mul_le_mul_of_nonneg_right hk hB
      _ = 2 ^ k * (ρ ^ (k + 1 + m) * B) := by ring
  exact le_of_mul_le_mul_left hfin p2

/-- Every odd part decomposition. -/
theorem odd_part {g : ℤ} (hg : g ≠ 0) : ∃ (k : ℕ) (h : ℤ), h % 2 = 1 ∧ g = 2 ^ k * h := by
  induction hn : g.natAbs using Nat.strong_induction_on generalizing g with
  | _ n ih =>
    by_cases h : g % 2 = 1
    · exact ⟨0, g, h, by ring⟩
    · obtain ⟨k, h', h1, h2⟩ := ih (g / 2).natAbs (by omega) (g := g / 2) (by omega) rfl
      exact ⟨k + 1, h', h1, by
        rw [show (2 : ℤ) ^ (k + 1) * h' = 2 * (2 ^ k * h') by ring]; omega⟩

/-- The induction: a norm bound `b ρ^-j` at `z = -1` means that `j` steps reach zero. -/
theorem reach_zero {N : List (ℤ × ℤ)} {κ : ℤ} (hκ : κ ≤ 2) (mk : ℕ → ℕ)
    (hmk : ∀ k, (mk k : ℤ) = k + 2 - κ) {ρ b : ℚ} (hρ : 0 < ρ)
    (hround : ∀ (B : ℚ) (k : ℕ) (f h c g' : ℤ), Inside N B f (2 ^ k * h) → 1 ≤ c →
      c ≤ 2 ^ (mk k + 1) - 1 → 2 ^ (mk k + 1) * g' = c * h - f →
      Inside N (ρ ^ (k + 1 + mk k) * B) h g')
    (hend : ∀ (j k : ℕ) (f h : ℤ), j < k + 1 + mk k → f % 2 = 1 → h % 2 = 1 →
      ¬ Inside N (b / ρ ^ j) f (2 ^ k * h)) :
    ∀ (j : ℕ) (f g : ℤ), f % 2 = 1 → Inside N (b / ρ ^ j) f g → (run κ j ⟨-1, f, g⟩).g = 0 := by
  intro j
  induction j using Nat.strong_induction_on with
  | _ j ih =>
    intro f g hf hin
    by_cases hg : g = 0
    · rw [hg, run_g_zero]
    obtain ⟨k, h, hh, rfl⟩ := odd_part hg
    rcases lt_or_ge j (k + 1 + mk k) with hj | hj
    · exact absurd hin (hend j k f h hj hf hh)
    obtain ⟨c, g', hc1, hc2, hg', hr⟩ := run_round (hmk k) hf hh
    obtain ⟨i, rfl⟩ := Nat.exists_eq_add_of_le hj
    rw [run_add, hr]
    have hin' := hround _ k f h c g' hin hc1 hc2 hg'
    refine ih i (by omega) h g' hh ?_
    have e : ρ ^ (k + 1 + mk k) * (b / ρ ^ (k + 1 + mk k + i)) = b / ρ ^ i := by
      rw [pow_add ρ (k + 1 + mk k) i]
      field_simp
    rw [e] at hin'
    exact hin'

end Secp.Divstep
