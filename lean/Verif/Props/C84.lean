import Verif.Proof.VerifyScalar4All

/-! # C84: the checks of a `VERIFY` build in the scalar code on 64-bit limbs

A build with `VERIFY` checks every scalar that enters or leaves a function (it must be below the order `n`), the
carries inside the multiplication of limbs, and the parameters.  The functions with the suffix `V` make these
checks; the value `none` is an abort.  `a.Rep v` says that the words of `a` are the canonical ones of the
residue `v`.  Each theorem says that for all canonical scalars within the documented conditions no check fails, and
that the result is the one that the build without checks has and the mathematical one. -/

namespace Secp
open Model Model.Verify Spec

/-- Addition; the second component is the documented return value. -/
theorem C84_add {a b : Sc4} {v w : Fn} (ha : a.Rep v) (hb : b.Rep w) :
    scAddV a b = some (Sc4.add a b) ∧ (Sc4.add a b).1.Rep (v + w) :=
  ⟨scAddV_ok ha hb, (C44_add ha hb).1⟩

/-- Multiplication: none of the checks on the carries of the 512-bit product and of its three reductions
fails. -/
theorem C84_mul {a b : Sc4} {v w : Fn} (ha : a.Rep v) (hb : b.Rep w) :
    scMulV a b = some (Sc4.mul a b) ∧ (Sc4.mul a b).Rep (v * w) :=
  ⟨scMulV_ok ha hb, C44_mul ha hb⟩

/-- The product of any words and the reduction of any 512-bit number, canonical or not. -/
theorem C84_mul_512 {a b : Sc4} (ha : a.Words) (hb : b.Words) {l : U512} (hl : l.Words) :
    mul512V a b = some (Sc4.mul512 a b) ∧ reduce512V l = some (Sc4.reduce512 l) :=
  ⟨mul512V_ok ha hb, reduce512V_ok hl⟩

/-- Negation, conditional negation and halving. -/
theorem C84_negate_half {a : Sc4} {v : Fn} (ha : a.Rep v) (flag : Bool) :
    scNegateV a = some a.negate ∧ a.negate.Rep (-v) ∧
    scCondNegateV a flag = some (a.condNegate flag) ∧ (a.condNegate flag).1.Rep (if flag then -v else v) ∧
    scHalfV a = some a.half ∧ a.half.Rep (v / 2) :=
  ⟨scNegateV_ok ha, C44_negate ha, scCondNegateV_ok ha flag, (C44_cond_negate ha flag).1, scHalfV_ok ha,
    C44_half ha⟩

/-- Adding a power of two, if it is documented to be allowed: the bit is below 256 and the sum below `n`. -/
theorem C84_cadd_bit {a : Sc4} {v : Fn} (ha : a.Rep v) {k : ℕ} (hk : k < 256) (flag : Bool)
    (ho : flag = true → v.val + 2 ^ k < n) :
    scCaddBitV a k flag = some (a.caddBit k flag) ∧ (a.caddBit k flag).Rep (if flag then v + 2 ^ k else v) :=
  ⟨scCaddBitV_ok ha hk flag ho, C44_cadd_bit ha hk flag ho⟩

/-- Conversions: integers, the 32-byte strings (all of them, also as secret keys) and back. -/
theorem C84_convert {k : ℕ} (hk : k < 2 ^ 32) {b : Bytes} (hl : b.length = 32) {a : Sc4} {v : Fn} (ha : a.Rep v) :
    scSetIntV k = some (Sc4.setInt k) ∧
    scSetB32V (byteAt b) = some (Sc4.setB32 (byteAt b)) ∧
    scSetB32SeckeyV (byteAt b) = some (Sc4.setB32Seckey (byteAt b)) ∧
    scGetB32V a = some (beBytes 32 v.val) :=
  ⟨scSetIntV_ok hk, scSetB32V_ok hl, scSetB32SeckeyV_ok hl, by rw [scGetB32V_ok ha, (C44_get_b32 ha).1]⟩

/-- The tests and the conditional move. -/
theorem C84_tests {a b : Sc4} {v w : Fn} (ha : a.Rep v) (hb : b.Rep w) (flag : Bool) :
    scIsZeroV a = some (decide (v = 0)) ∧ scIsOneV a = some (decide (v = 1)) ∧
    scIsEvenV a = some (decide (v.val % 2 = 0)) ∧ scIsHighV a = some (decide (n / 2 < v.val)) ∧
    scEqV a b = some (decide (v = w)) ∧ scCmovV a b flag = some (if flag then b else a) := by
  obtain ⟨h1, h2, h3, h4, h5⟩ := C44_tests ha hb
  refine ⟨?_, ?_, ?_, ?_, ?_, ?_⟩
  · rw [scIsZeroV_ok ha, h1]
  · rw [← h2]
    exact bind_step (scVerify_rep ha) rfl
  · rw [← h3]
    exact bind_step (scVerify_rep ha) rfl
  · rw [← h4]
    exact bind_step (scVerify_rep ha) rfl
  · rw [scEqV_ok ha hb, h5]
  · rw [scCmovV_ok ha hb, Sc4.cmov_eq ha.words hb.words]

/-- Reading bits: 1 to 32 of them, inside the 256 (and, for the faster function, inside one limb). -/
theorem C84_get_bits {a : Sc4} {v : Fn} (ha : a.Rep v) {offset count : ℕ} (h0 : 0 < count) (h1 : count ≤ 32)
    (h2 : offset + count ≤ 256) :
    scGetBitsVarV a offset count = some (v.val / 2 ^ offset % 2 ^ count) ∧
    ((offset + count - 1) / 64 = offset / 64 →
      scGetBitsLimb32V a offset count = some (v.val / 2 ^ offset % 2 ^ count)) := by
  obtain ⟨g1, g2⟩ := C44_get_bits ha h0 h1 h2
  exact ⟨by rw [scGetBitsVarV_ok ha h0 h1 h2, g1], fun h => by rw [scGetBitsLimb32V_ok ha h0 h1 h, g2 h]⟩

/-- The rounded product, for the shifts from 256 to 512. -/
theorem C84_mul_shift {a b : Sc4} {v w : Fn} (ha : a.Rep v) (hb : b.Rep w) {shift : ℕ} (h1 : 256 ≤ shift)
    (h2 : shift ≤ 512) : scMulShiftVarV a b shift = some (Sc4.mulShiftVar a b shift) ∧
      (Sc4.mulShiftVar a b shift).nat = (v.val * w.val + 2 ^ (shift - 1)) / 2 ^ shift :=
  ⟨scMulShiftVarV_ok ha hb h1 h2, (C44_mul_shift ha hb h1 h2).2.2.1⟩

/-- The two ways to split a scalar.  The checks of the second include that the parts add up and that both are
within the bounds derived in the comment of scalar_impl.h. -/
theorem C84_split {a : Sc4} {v : Fn} (ha : a.Rep v) :
    scSplit128V a = some a.split128 ∧ a.split128.1.nat + a.split128.2.nat * 2 ^ 128 = v.val ∧
    scSplitLambdaV a = some a.splitLambda ∧
    (a.splitLambda.1.nat : Fn) + (a.splitLambda.2.nat : Fn) * (constLambda : ℕ) = v :=
  ⟨scSplit128V_ok ha, (C44_split_128 ha).2.2.2.2, scSplitLambdaV_ok ha, (C44_split_lambda ha).2.2.1⟩

/-- The inverses (the variable-time one ends within 12 iterations): the checks on the limbs that the conversions
read, that the result is below `n` and that it is zero exactly if the argument is. -/
theorem C84_inverse {a : Sc4} {v : Fn} (ha : a.Rep v) {fuel : ℕ} (hf : 12 ≤ fuel) :
    (∃ r, scInverseV a = some r ∧ Sc4.inverse? a = some r ∧ r.Rep v⁻¹) ∧
    ∃ r, scInverseVarV fuel a = some r ∧ Sc4.inverseVar? fuel a = some r ∧ r.Rep v⁻¹ := by
  have key : ∀ {r : Sc4} {w : Fn}, r.Rep w → (v = 0 → w = 0) → (v ≠ 0 → w * v = 1) → r.Rep v⁻¹ := by
    intro r w hr h0 h1
    have : w = v⁻¹ := by
      by_cases hv : v = 0
      · rw [h0 hv, hv, _root_.inv_zero]
      · exact eq_inv_of_mul_eq_one_left (h1 hv)
    rwa [← this]
  obtain ⟨r, w, e, hr, h0, h1⟩ := C46_scalar_inverse ha
  obtain ⟨r', w', e', hr', h0', h1'⟩ := C46_scalar_inverse_var ha hf
  exact ⟨⟨r, by rw [scInverseV_ok ha, e], e, key hr h0 h1⟩,
    ⟨r', by rw [scInverseVarV_ok ha hf, e'], e', key hr' h0' h1'⟩⟩

/-! ### The checks are real -/

theorem scVerify_none {a : Sc4} (ha : a.Words) (h : n ≤ a.nat) : scVerify a = none := by
  unfold scVerify
  rw [(Sc4.checkOverflow_iff ha).2 h]
  rfl

/-- A scalar that is not below `n` makes every function abort that takes it. -/
theorem C84_noncanonical {a : Sc4} (ha : a.Words) (h : n ≤ a.nat) (b : Sc4) (k m : ℕ) (flag : Bool) :
    scAddV a b = none ∧ scMulV a b = none ∧ scNegateV a = none ∧ scCondNegateV a flag = none ∧ scHalfV a = none ∧
    scCaddBitV a k flag = none ∧ scGetB32V a = none ∧ scIsZeroV a = none ∧ scIsOneV a = none ∧
    scIsEvenV a = none ∧ scIsHighV a = none ∧ scEqV a b = none ∧ scCmovV b a flag = none ∧
    scGetBitsVarV a k m = none ∧ scGetBitsLimb32V a k m = none ∧ scMulShiftVarV a b k = none ∧
    scSplit128V a = none ∧ scSplitLambdaV a = none ∧ scInverseV a = none ∧ scInverseVarV k a = none := by
  have hn := scVerify_none ha h
  have key : ∀ {β : Type} (f : Unit → Option β), (scVerify a >>= f) = none := by
    intro β f
    rw [hn]
    rfl
  have hz : scIsZeroV a = none := key _
  have keyz : ∀ {β : Type} (f : Bool → Option β), (scIsZeroV a >>= f) = none := by
    intro β f
    rw [hz]
    rfl
  exact ⟨key _, key _, keyz _, keyz _, key _, key _, key _, hz, key _, key _, key _, key _, key _, key _, key _, key _,
    key _, key _, keyz _, keyz _⟩

/-- The conditions on the parameters are checked, too. -/
theorem C84_parameters {a b : Sc4} {v w : Fn} (ha : a.Rep v) (hb : b.Rep w) :
    (∀ k flag, 256 ≤ k → scCaddBitV a k flag = none) ∧
    (∀ shift, shift < 256 → scMulShiftVarV a b shift = none) ∧
    (∀ offset count, count = 0 ∨ 32 < count ∨ 256 < offset + count → scGetBitsVarV a offset count = none) ∧
    (∀ offset count, count = 0 ∨ 32 < count ∨ (offset + count - 1) / 64 ≠ offset / 64 →
      scGetBitsLimb32V a offset count = none) := by
  have stop : ∀ {β : Type} {c : Bool} (f : Unit → Option β), c = false → (check c >>= f) = none := by
    intro β c f h
    rw [h]
    rfl
  refine ⟨fun k flag hk => ?_, fun s hs => ?_, fun o c h => ?_, fun o c h => ?_⟩
  · refine bind_step (scVerify_rep ha) (stop _ (decide_eq_false ?_))
    omega
  · refine bind_step (scVerify_rep ha) (bind_step (scVerify_rep hb) (stop _ (decide_eq_false ?_)))
    omega
  · refine bind_step (scVerify_rep ha) ?_
    by_cases hc : c = 0 ∨ 32 < c
    · refine stop _ ?_
      rw [Bool.and_eq_false_iff, decide_eq_false_iff_not, decide_eq_false_iff_not]
      omega
    · refine bind_step (check_true ?_) (stop _ (decide_eq_false ?_))
      · rw [Bool.and_eq_true, decide_eq_true_eq, decide_eq_true_eq]
        omega
      · omega
  · refine bind_step (scVerify_rep ha) ?_
    by_cases hc : c = 0 ∨ 32 < c
    · refine stop _ ?_
      rw [Bool.and_eq_false_iff, decide_eq_false_iff_not, decide_eq_false_iff_not]
      omega
    · refine bind_step (check_true ?_) (stop _ (decide_eq_false ?_))
      · rw [Bool.and_eq_true, decide_eq_true_eq, decide_eq_true_eq]
        omega
      · rw [Nat.shiftRight_eq_div_pow, Nat.shiftRight_eq_div_pow]
        intro he
        rcases h with h | h | h
        · exact hc (.inl h)
        · exact hc (.inr h)
        · exact h he

/-! ### The hypotheses are met -/

/-- `n - 1` times itself is one. -/
example : ∃ r, scMulV ⟨scN0 - 1, scN1, scN2, scN3⟩ ⟨scN0 - 1, scN1, scN2, scN3⟩ = some r ∧ r.Rep 1 := by
  obtain ⟨h1, h2⟩ := C84_mul rep_max rep_max
  exact ⟨_, h1, by simpa using h2⟩

/-- `n` itself is rejected. -/
example : scNegateV ⟨scN0, scN1, scN2, scN3⟩ = none :=
  (C84_noncanonical ⟨by decide, by decide, by decide, by decide⟩ (by decide +kernel) ⟨0, 0, 0, 0⟩ 0 0 false).2.2.1

example : ∃ r, scInverseV ⟨scN0 - 1, scN1, scN2, scN3⟩ = some r ∧ r.Rep (-1) := by
  obtain ⟨⟨r, h1, -, h2⟩, -⟩ := C84_inverse rep_max (le_refl 12)
  exact ⟨r, h1, by rwa [inv_neg, inv_one] at h2⟩

/-- The last bits of `n - 1`, and one bit too many. -/
example : scGetBitsVarV ⟨scN0 - 1, scN1, scN2, scN3⟩ 224 32 = some 0xFFFFFFFF ∧
    scGetBitsVarV ⟨scN0 - 1, scN1, scN2, scN3⟩ 225 32 = none := by
  refine ⟨by decide +kernel, (C84_parameters rep_max rep_max).2.2.1 _ _ (by decide)⟩

example : scCaddBitV ⟨1, 0, 0, 0⟩ 128 true = some ⟨1, 0, 1, 0⟩ := by decide +kernel

/-- Beyond the documented condition the check of the carry, or of the result, fails. -/
example : scCaddBitV ⟨scN0 - 1, scN1, scN2, scN3⟩ 0 true = none ∧
    scCaddBitV ⟨scN0 - 1, scN1, scN2, scN3⟩ 255 true = none := by decide +kernel

end Secp
