import Verif.Proof.Scalar4x64Bytes
import Verif.Proof.Field5x52Bytes
import Verif.Props.C45
import Verif.Proof.Endo

/-!
# C44: scalar arithmetic on 64-bit limbs is exact modulo `n`

`a.Rep v` (Verif/Spec/ScalarLimbs.lean): the four words of `a` are those of the number in `[0, n)`
that represents the residue `v`.  The model reduces every word modulo `2^64` and every double word
modulo `2^128`, as the machine does.
-/

namespace Secp
open Model Model.Sc4 Spec

namespace Model.Sc4

theorem Rep.lt {a : Sc4} {v : Fn} (h : a.Rep v) : a.nat < n := by
  rw [h.val]
  exact ZMod.val_lt v

/-- Words and a value below `n` give the representation. -/
theorem Rep.of {a : Sc4} (hw : a.Words) {v : Fn} {x : ℕ} (hx : a.nat = x % n) (hv : (x : Fn) = v) :
    a.Rep v := ⟨hw, by rw [hx, ← hv, ZMod.val_natCast]⟩

theorem Rep.of' {a : Sc4} (hw : a.Words) (h : a.nat < n) {v : Fn} (hv : (a.nat : Fn) = v) :
    a.Rep v := ⟨hw, by rw [← hv, ZMod.val_natCast, Nat.mod_eq_of_lt h]⟩

theorem Rep.cast {a : Sc4} {v : Fn} (h : a.Rep v) : (a.nat : Fn) = v := by
  rw [h.val, ZMod.natCast_zmod_val]

end Model.Sc4

/-- Every residue has exactly one representation by words. -/
theorem C44_unique (v : Fn) : ∃! a : Sc4, a.Rep v := by
  have hv : v.val < 2 ^ 256 := lt_trans (ZMod.val_lt v) (by unfold n; decide)
  obtain ⟨h1, h2⟩ := const_spec hv
  exact ⟨const v.val, ⟨h1, h2⟩, fun b hb => nat_inj hb.words h1 (by rw [hb.val, h2])⟩

/-- `secp256k1_scalar_add` (scalar.h:48-49: "Returns whether it overflowed"). -/
theorem C44_add {a b : Sc4} {v w : Fn} (ha : a.Rep v) (hb : b.Rep w) :
    (add a b).1.Rep (v + w) ∧ (add a b).2 = if n ≤ v.val + w.val then 1 else 0 := by
  obtain ⟨h1, h2, h3⟩ := Sc4.add_spec ha.words hb.words ha.lt hb.lt
  refine ⟨Rep.of h1 h2 ?_, ?_⟩
  · rw [Nat.cast_add, ha.cast, hb.cast]
  · rw [h3, ha.val, hb.val]

/-- `secp256k1_scalar_mul` (scalar.h:55). -/
theorem C44_mul {a b : Sc4} {v w : Fn} (ha : a.Rep v) (hb : b.Rep w) : (mul a b).Rep (v * w) := by
  obtain ⟨h1, h2⟩ := mul512_spec ha.words hb.words
  obtain ⟨h3, h4⟩ := reduce512_spec h1
  exact Rep.of (x := a.nat * b.nat) h3 (by rw [← h2]; exact h4) (by rw [Nat.cast_mul, ha.cast, hb.cast])

/-- The full 512-bit product and its reduction, for all words, reduced or not. -/
theorem C44_mul_512 {a b : Sc4} (ha : a.Words) (hb : b.Words) :
    (mul512 a b).Words ∧ (mul512 a b).nat = a.nat * b.nat ∧
    (reduce512 (mul512 a b)).Words ∧ (reduce512 (mul512 a b)).nat = a.nat * b.nat % n := by
  obtain ⟨h1, h2⟩ := mul512_spec ha hb
  obtain ⟨h3, h4⟩ := reduce512_spec h1
  exact ⟨h1, h2, h3, by rw [h4, h2]⟩

/-- `secp256k1_scalar_negate` (scalar.h:64). -/
theorem C44_negate {a : Sc4} {v : Fn} (ha : a.Rep v) : a.negate.Rep (-v) := by
  by_cases h : a.nat = 0
  · rw [negate_zero h]
    have hv : v = 0 := by rw [← ha.cast, h, Nat.cast_zero]
    rw [hv, neg_zero]
    exact ⟨⟨by decide, by decide, by decide, by decide⟩, by rw [ZMod.val_zero]; rfl⟩
  · obtain ⟨h1, h2⟩ := Sc4.negate_spec ha.words h ha.lt
    have hlt := ha.lt
    refine Rep.of' h1 (by omega) ?_
    rw [h2, Nat.cast_sub (by omega), ha.cast, ZMod.natCast_self, zero_sub]

/-- `secp256k1_scalar_cond_negate` (scalar.h:81-83: "Returns -1 if the number was negated, 1
otherwise"). -/
theorem C44_cond_negate {a : Sc4} {v : Fn} (ha : a.Rep v) (flag : Bool) :
    (a.condNegate flag).1.Rep (if flag then -v else v) ∧
    (a.condNegate flag).2 = if flag then -1 else 1 := by
  cases flag
  · rw [condNegate_false _ ha.words]
    exact ⟨ha, rfl⟩
  · rw [condNegate_true _ ha.words]
    exact ⟨C44_negate ha, rfl⟩

theorem fn_two_ne_zero : (2 : Fn) ≠ 0 := by
  intro h
  have : ((2 : ℕ) : Fn) = 0 := by exact_mod_cast h
  rw [ZMod.natCast_eq_zero_iff, Nat.dvd_iff_mod_eq_zero] at this
  revert this
  decide +kernel

/-- `secp256k1_scalar_half` (scalar.h:67). -/
theorem C44_half {a : Sc4} {v : Fn} (ha : a.Rep v) : a.half.Rep (v / 2) := by
  obtain ⟨h1, h2⟩ := Sc4.half_spec ha.words ha.lt
  have hlt := ha.lt
  have hodd : n % 2 = 1 := by unfold n; decide +kernel
  have h3 : a.half.nat < n ∧ (a.half.nat * 2 = a.nat ∨ a.half.nat * 2 = a.nat + n) := by
    rw [h2]
    split_ifs with h <;> constructor <;> omega
  refine Rep.of' h1 h3.1 ?_
  rw [eq_div_iff fn_two_ne_zero]
  rcases h3.2 with h | h
  · have := congrArg (fun x : ℕ => (x : Fn)) h
    simp only [Nat.cast_mul, ha.cast] at this
    exact_mod_cast this
  · have := congrArg (fun x : ℕ => (x : Fn)) h
    simp only [Nat.cast_mul, Nat.cast_add, ha.cast, ZMod.natCast_self, add_zero] at this
    exact_mod_cast this

/-- `secp256k1_scalar_set_int` (scalar.h:43) for every `unsigned int`. -/
theorem C44_set_int {k : ℕ} (hk : k < 2 ^ 32) : (setInt k).Rep (k : Fn) := by
  have hn : k < n := lt_trans hk (by unfold n; decide)
  refine Rep.of' ⟨?_, ?_, ?_, ?_⟩ ?_ ?_ <;> unfold setInt <;> (try unfold nat) <;> (try dsimp only) <;>
    (try omega)
  simp

/-- The tests `is_zero`, `is_one`, `is_even`, `is_high` and `eq` (scalar.h:57-86). -/
theorem C44_tests {a b : Sc4} {v w : Fn} (ha : a.Rep v) (hb : b.Rep w) :
    (a.isZero = decide (v = 0)) ∧ (a.isOne = decide (v = 1)) ∧
    (a.isEven = decide (v.val % 2 = 0)) ∧ (a.isHigh = decide (n / 2 < v.val)) ∧
    (Sc4.eq a b = decide (v = w)) := by
  have one : (1 : Fn).val = 1 := by
    have : ((1 : ℕ) : Fn).val = 1 := by
      rw [ZMod.val_natCast]
      unfold n
      decide
    simpa using this
  refine ⟨?_, ?_, ?_, ?_, ?_⟩ <;> rw [Bool.eq_iff_iff, decide_eq_true_iff]
  · rw [isZero_iff, ha.val, ZMod.val_eq_zero]
  · rw [isOne_iff]
    constructor
    · rintro ⟨h, -⟩
      rw [← ha.cast, h, Nat.cast_one]
    · rintro rfl
      have h := ha.val
      rw [one] at h
      refine ⟨h, ?_⟩
      unfold nat at h
      omega
  · rw [isEven_iff, ha.val]
  · rw [isHigh_iff ha.words, ha.val]
  · rw [eq_iff]
    constructor
    · rintro rfl
      rw [← ha.cast, ← hb.cast]
    · rintro rfl
      exact nat_inj ha.words hb.words (by rw [ha.val, hb.val])

/-- `secp256k1_scalar_cmov` (scalar.h:99). -/
theorem C44_cmov {a b : Sc4} {v w : Fn} (ha : a.Rep v) (hb : b.Rep w) (flag : Bool) :
    (cmov a b flag).Rep (if flag then w else v) := by
  rw [cmov_eq ha.words hb.words]
  cases flag
  · exact ha
  · exact hb

/-- `secp256k1_scalar_cadd_bit` (scalar.h:51-52: "The result is not allowed to overflow"). -/
theorem C44_cadd_bit {a : Sc4} {v : Fn} (ha : a.Rep v) {k : ℕ} (hk : k < 256) (flag : Bool)
    (ho : flag = true → v.val + 2 ^ k < n) :
    (a.caddBit k flag).Rep (if flag then v + 2 ^ k else v) := by
  cases flag
  · rw [caddBit_noop ha.words hk]
    exact ha
  · have ho := ho rfl
    rw [← ha.val] at ho
    have hn : n < 2 ^ 256 := by unfold n; decide
    obtain ⟨h1, h2⟩ := caddBit_spec ha.words hk (by omega)
    refine Rep.of' h1 (by rw [h2]; exact ho) ?_
    rw [h2, Nat.cast_add, ha.cast, if_pos rfl]
    norm_num

/-- `secp256k1_scalar_get_bits_limb32` and `secp256k1_scalar_get_bits_var` (scalar.h:25-29): the
`count` bits from `offset` on. -/
theorem C44_get_bits {a : Sc4} {v : Fn} (ha : a.Rep v) {offset count : ℕ} (h0 : 0 < count)
    (h1 : count ≤ 32) (h2 : offset + count ≤ 256) :
    a.getBitsVar offset count = v.val / 2 ^ offset % 2 ^ count ∧
    ((offset + count - 1) / 64 = offset / 64 →
      a.getBitsLimb32 offset count = v.val / 2 ^ offset % 2 ^ count) := by
  rw [← ha.val]
  exact ⟨getBitsVar_spec ha.words h0 h1 h2, fun h => getBitsLimb32_spec ha.words h0 h1 h h2⟩

/-- `secp256k1_scalar_set_b32` and `secp256k1_scalar_set_b32_seckey` (scalar.h:31-40): every 32-byte
string is reduced modulo `n`, overflow is reported exactly when that changed the number, and as a
secret key exactly the encodings of `1 .. n - 1` are accepted. -/
theorem C44_set_b32 {b : Bytes} (hl : b.length = 32) :
    (setB32 (byteAt b)).1.Rep (beNat b : Fn) ∧ (setB32 (byteAt b)).2 = decide (n ≤ beNat b) ∧
    (setB32Seckey (byteAt b)).1 = (setB32 (byteAt b)).1 ∧
    (setB32Seckey (byteAt b)).2 = decide (0 < beNat b ∧ beNat b < n) := by
  have hb := byteAt_lt b
  have hlt : ∀ i, readBe64 (byteAt b) i < 2 ^ 64 := by
    intro i
    rw [readBe64_eq hb]
    have := hb i
    have := hb (i + 1)
    have := hb (i + 2)
    have := hb (i + 3)
    have := hb (i + 4)
    have := hb (i + 5)
    have := hb (i + 6)
    have := hb (i + 7)
    omega
  have hw : (Sc4.mk (readBe64 (byteAt b) 24) (readBe64 (byteAt b) 16) (readBe64 (byteAt b) 8)
      (readBe64 (byteAt b) 0)).Words := ⟨hlt _, hlt _, hlt _, hlt _⟩
  have hn : (Sc4.mk (readBe64 (byteAt b) 24) (readBe64 (byteAt b) 16) (readBe64 (byteAt b) 8)
      (readBe64 (byteAt b) 0)).nat = beNat b := by
    unfold nat
    dsimp only
    rw [readBe64_eq hb, readBe64_eq hb, readBe64_eq hb, readBe64_eq hb, beNat_byteAt hl]
    simp only [Nat.reduceAdd, Nat.zero_add]
    omega
  have h2n : 2 ^ 256 < 2 * n := by unfold n; decide
  have hlt256 := hw.lt
  obtain ⟨f1, f2, f3, f4⟩ := reduce_final hw (c := 0) (by rw [hn] at *; omega)
  rw [Nat.zero_add] at f1 f2 f3 f4
  rw [hn, Nat.zero_mul, Nat.add_zero] at f4 f2
  have hc := checkOverflow_iff hw
  rw [hn] at hc
  have e2 : (setB32 (byteAt b)).2 = decide (n ≤ beNat b) := by
    unfold setB32
    rw [Bool.eq_iff_iff, decide_eq_true_iff]
    exact hc
  refine ⟨Rep.of f3 f4 rfl, e2, rfl, ?_⟩
  unfold setB32Seckey
  simp only
  rw [Bool.eq_iff_iff, e2]
  simp only [Bool.and_eq_true, Bool.not_eq_true', decide_eq_false_iff_not, decide_eq_true_eq]
  rw [isZero_false]
  have e3 : (setB32 (byteAt b)).1.nat = beNat b % n := f4
  rw [e3]
  constructor
  · rintro ⟨h1, h2⟩
    rw [Nat.mod_eq_of_lt (by omega)] at h2
    omega
  · rintro ⟨h1, h2⟩
    rw [Nat.mod_eq_of_lt h2]
    omega

/-- `secp256k1_scalar_get_b32` (scalar.h:46): the big endian encoding, and reading it back gives the
same words without overflow. -/
theorem C44_get_b32 {a : Sc4} {v : Fn} (ha : a.Rep v) :
    a.getB32 = beBytes 32 v.val ∧ setB32 (byteAt a.getB32) = (a, false) := by
  have e := Sc4.getB32_spec a ha.words
  rw [ha.val] at e
  refine ⟨e, ?_⟩
  have hl : (beBytes 32 v.val).length = 32 := Hash.beBytes_length _ _
  have hb : beNat (beBytes 32 v.val) = v.val := by
    rw [beNat_beBytes]
    exact Nat.mod_eq_of_lt (lt_trans (ZMod.val_lt v) (by unfold n; decide))
  obtain ⟨h1, h2, -⟩ := C44_set_b32 hl
  rw [e]
  rw [hb, ZMod.natCast_zmod_val] at h1
  rw [hb, decide_eq_false (not_le.2 (ZMod.val_lt v))] at h2
  exact Prod.ext (nat_inj h1.words ha.words (by rw [h1.val, ha.val])) h2

/-- `secp256k1_scalar_split_128` (scalar.h:88-89: `r1 + r2 * 2^128 = k`). -/
theorem C44_split_128 {k : Sc4} {v : Fn} (hk : k.Rep v) :
    k.split128.1.Words ∧ k.split128.2.Words ∧ k.split128.1.nat < 2 ^ 128 ∧
    k.split128.2.nat < 2 ^ 128 ∧ k.split128.1.nat + k.split128.2.nat * 2 ^ 128 = v.val := by
  obtain ⟨h1, h2, h3, h4⟩ := split128_spec hk.words
  have := hk.words.lt
  rw [h3, h4, ← hk.val]
  exact ⟨h1, h2, by omega, by omega, by omega⟩

/-- `secp256k1_scalar_mul_shift_var` (scalar.h:94-96): `a * b / 2^shift`, rounded to the nearest
integer, for every shift from 256 to 512. -/
theorem C44_mul_shift {a b : Sc4} {v w : Fn} (ha : a.Rep v) (hb : b.Rep w) {shift : ℕ}
    (h1 : 256 ≤ shift) (h2 : shift ≤ 512) :
    (mulShiftVar a b shift).Words ∧ (mulShiftVar a b shift).nat < n ∧
    (mulShiftVar a b shift).nat = (v.val * w.val + 2 ^ (shift - 1)) / 2 ^ shift ∧
    (mulShiftVar a b shift).Rep (scMulShift v w shift) := by
  obtain ⟨hw, he⟩ := mul512_spec ha.words hb.words
  rw [ha.val, hb.val] at he
  have hle : v.val * w.val ≤ (n - 1) * (n - 1) :=
    Nat.mul_le_mul (by have := ZMod.val_lt v; omega) (by have := ZMod.val_lt w; omega)
  have hq : v.val * w.val / 2 ^ shift + 1 < n := by
    have h3 : v.val * w.val / 2 ^ shift ≤ (n - 1) * (n - 1) / 2 ^ 256 :=
      (Nat.div_le_div_left (Nat.pow_le_pow_right (by decide) h1) (by positivity)).trans
        (Nat.div_le_div_right hle)
    have h4 : (n - 1) * (n - 1) / 2 ^ 256 + 1 < n := by unfold n; decide +kernel
    omega
  have hn : n < 2 ^ 256 := by unfold n; decide
  obtain ⟨s1, s2⟩ := shift512_spec hw h1 h2 (by rw [he]; omega)
  rw [he] at s2
  have hlt : (mulShiftVar a b shift).nat < n := by
    unfold mulShiftVar
    omega
  refine ⟨s1, hlt, ?_, Rep.of' s1 hlt ?_⟩
  · unfold mulShiftVar
    rw [s2]
    obtain ⟨k, rfl⟩ : ∃ k, shift = k + 1 := ⟨shift - 1, by omega⟩
    rw [Nat.add_sub_cancel, pow_succ, ← Nat.div_div_eq_div_mul, ← Nat.div_div_eq_div_mul]
    have e : (v.val * w.val + 2 ^ k) / 2 ^ k = v.val * w.val / 2 ^ k + 1 :=
      Nat.add_div_right _ (by positivity)
    rw [e]
    omega
  · unfold scMulShift
    rw [s2]

private theorem small_or {a : Fn} (h : Small a) : a.val < 2 ^ 128 ∨ n - a.val < 2 ^ 128 := by
  rcases h with h | h
  · exact Or.inl h
  · rw [ZMod.neg_val] at h
    split at h
    · rename_i h0
      left
      rw [h0, ZMod.val_zero]
      decide
    · exact Or.inr h

/-- `secp256k1_scalar_split_lambda` (scalar.h:90-93): the words of two scalars with
`r1 + r2 * lambda = k` that are, up to sign, shorter than 128 bits.  They are those the model of the
callers uses (`scSplitLambda`). -/
theorem C44_split_lambda {k : Sc4} {v : Fn} (hk : k.Rep v) :
    k.splitLambda.1.Rep (scSplitLambda v).1 ∧ k.splitLambda.2.Rep (scSplitLambda v).2 ∧
    (k.splitLambda.1.nat : Fn) + (k.splitLambda.2.nat : Fn) * (constLambda : ℕ) = v ∧
    (k.splitLambda.1.nat < 2 ^ 128 ∨ n - k.splitLambda.1.nat < 2 ^ 128) ∧
    (k.splitLambda.2.nat < 2 ^ 128 ∨ n - k.splitLambda.2.nat < 2 ^ 128) := by
  suffices h : k.splitLambda.1.Rep (scSplitLambda v).1 ∧ k.splitLambda.2.Rep (scSplitLambda v).2 by
    obtain ⟨h1, h2⟩ := h
    obtain ⟨e, s1, s2⟩ := splitLambda_spec v
    refine ⟨h1, h2, ?_, ?_, ?_⟩
    · rw [h1.cast, h2.cast, mul_comm]
      exact e
    · rw [h1.val]
      exact small_or s1
    · rw [h2.val]
      exact small_or s2
  have hc : ∀ x, x < n → (Sc4.const x).Rep (scConst x) := by
    intro x hx
    obtain ⟨h1, h2⟩ := const_spec (v := x) (lt_trans hx (by unfold n; decide))
    exact Rep.of' h1 (by rw [h2]; exact hx) (by rw [h2]; rfl)
  have g1 := hc splitG1 (by unfold n; decide)
  have g2 := hc splitG2 (by unfold n; decide)
  have b1 := hc minusB1 (by unfold n; decide)
  have b2 := hc minusB2 (by unfold n; decide)
  have la := hc constLambda (by unfold n; decide)
  have c1 := (C44_mul_shift hk g1 (shift := 384) (by decide) (by decide)).2.2.2
  have c2 := (C44_mul_shift hk g2 (shift := 384) (by decide) (by decide)).2.2.2
  have r2 := (C44_add (C44_mul c1 b1) (C44_mul c2 b2)).1
  have r1 := (C44_add (C44_negate (C44_mul r2 la)) hk).1
  unfold splitLambda scSplitLambda
  exact ⟨r1, r2⟩

/-- Programs of scalar operations on registers. -/
inductive ScOp
  | add (d a b : ℕ)
  | mul (d a b : ℕ)
  | neg (d a : ℕ)
  | half (d a : ℕ)

/-- One instruction on words. -/
def ScOp.onWords (s : ℕ → Sc4) : ScOp → ℕ → Sc4
  | .add d a b => Function.update s d (Sc4.add (s a) (s b)).1
  | .mul d a b => Function.update s d (Sc4.mul (s a) (s b))
  | .neg d a => Function.update s d (s a).negate
  | .half d a => Function.update s d (s a).half

/-- One instruction on residues. -/
def ScOp.onResidues (s : ℕ → Fn) : ScOp → ℕ → Fn
  | .add d a b => Function.update s d (s a + s b)
  | .mul d a b => Function.update s d (s a * s b)
  | .neg d a => Function.update s d (-s a)
  | .half d a => Function.update s d (s a / 2)

/-- However long a computation, the words stay those of the exact residues. -/
theorem C44_program (ops : List ScOp) (s : ℕ → Sc4) (v : ℕ → Fn) (h : ∀ i, (s i).Rep (v i)) :
    ∀ i, (ops.foldl ScOp.onWords s i).Rep (ops.foldl ScOp.onResidues v i) := by
  induction ops generalizing s v with
  | nil => exact h
  | cons op ops ih =>
    refine ih _ _ ?_
    have hu : ∀ d x y, x.Rep y → ∀ i, (Function.update s d x i).Rep (Function.update v d y i) := by
      intro d x y hxy i
      by_cases hi : i = d
      · subst hi
        simpa using hxy
      · simpa [Function.update_of_ne hi] using h i
    cases op with
    | add d a b => exact hu d _ _ (C44_add (h a) (h b)).1
    | mul d a b => exact hu d _ _ (C44_mul (h a) (h b))
    | neg d a => exact hu d _ _ (C44_negate (h a))
    | half d a => exact hu d _ _ (C44_half (h a))

/-! ### The hypotheses are met -/

/-- The largest scalar, `n - 1`. -/
theorem rep_max : (Sc4.mk (scN0 - 1) scN1 scN2 scN3).Rep (-1) := by
  refine Rep.of' ⟨by decide, by decide, by decide, by decide⟩ (by unfold n; decide) ?_
  have h : (Sc4.mk (scN0 - 1) scN1 scN2 scN3).nat + 1 = n := by unfold n; decide +kernel
  have := congrArg (fun x : ℕ => (x : Fn)) h
  simp only [Nat.cast_add, Nat.cast_one, ZMod.natCast_self] at this
  exact eq_neg_of_add_eq_zero_left this

example : (mul (Sc4.mk (scN0 - 1) scN1 scN2 scN3) (Sc4.mk (scN0 - 1) scN1 scN2 scN3)).Rep 1 := by
  simpa using C44_mul rep_max rep_max

example : (mul (Sc4.mk (scN0 - 1) scN1 scN2 scN3) (Sc4.mk (scN0 - 1) scN1 scN2 scN3)) =
    ⟨1, 0, 0, 0⟩ := by decide +kernel

example : (add (Sc4.mk (scN0 - 1) scN1 scN2 scN3) ⟨1, 0, 0, 0⟩) = (⟨0, 0, 0, 0⟩, 1) := by
  decide +kernel

example : (setB32Seckey (byteAt (beBytes 32 n))).2 = false ∧
    (setB32Seckey (byteAt (beBytes 32 (n - 1)))).2 = true := by
  constructor
  · rw [(C44_set_b32 (Hash.beBytes_length 32 _)).2.2.2, beNat_beBytes]; decide +kernel
  · rw [(C44_set_b32 (Hash.beBytes_length 32 _)).2.2.2, beNat_beBytes]; decide +kernel

example : (half (Sc4.mk 1 0 0 0)).Rep (1 / 2) :=
  C44_half (by simpa [setInt] using C44_set_int (k := 1) (by decide))

example : (splitLambda (Sc4.mk (scN0 - 1) scN1 scN2 scN3)).1.Rep (scSplitLambda (-1)).1 :=
  (C44_split_lambda rep_max).1

end Secp
