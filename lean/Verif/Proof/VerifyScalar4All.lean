import Verif.Proof.VerifyScalar4Ops

/-!
# The checks of a `VERIFY` build hold in the scalar code on 64-bit limbs: conversions, splitting and inverses
-/

namespace Secp.Model.Verify
open Secp Sc4

theorem scSetIntV_ok {k : ℕ} (hk : k < 2 ^ 32) : scSetIntV k = some (Sc4.setInt k) :=
  bind_step (scVerify_rep (C44_set_int hk)) rfl

theorem scGetBitsLimb32V_ok {a : Sc4} {v : Fn} (ha : a.Rep v) {offset count : ℕ} (h0 : 0 < count)
    (h1 : count ≤ 32) (h2 : (offset + count - 1) / 64 = offset / 64) :
    scGetBitsLimb32V a offset count = some (a.getBitsLimb32 offset count) := by
  refine bind_step (scVerify_rep ha) ?_
  refine bind_step (check_true (by simp [h0, h1])) ?_
  refine bind_step (check_true (decide_eq_true ?_)) rfl
  rw [Nat.shiftRight_eq_div_pow, Nat.shiftRight_eq_div_pow]
  exact h2

theorem scGetBitsVarV_ok {a : Sc4} {v : Fn} (ha : a.Rep v) {offset count : ℕ} (h0 : 0 < count)
    (h1 : count ≤ 32) (h2 : offset + count ≤ 256) :
    scGetBitsVarV a offset count = some (a.getBitsVar offset count) := by
  refine bind_step (scVerify_rep ha) ?_
  refine bind_step (check_true (by simp [h0, h1])) ?_
  refine bind_step (check_true (decide_eq_true h2)) ?_
  unfold Sc4.getBitsVar
  by_cases h : (offset + count - 1) >>> 6 = offset >>> 6
  · rw [if_pos h, if_pos h]
    refine scGetBitsLimb32V_ok ha h0 h1 ?_
    rw [Nat.shiftRight_eq_div_pow, Nat.shiftRight_eq_div_pow] at h
    exact h
  · rw [if_neg h, if_neg h]
    refine bind_step (check_true (decide_eq_true ?_)) rfl
    rw [Nat.shiftRight_eq_div_pow, Nat.shiftRight_eq_div_pow] at h
    rw [Nat.shiftRight_eq_div_pow]
    omega

theorem readBe64_lt (b : Spec.Bytes) (i : ℕ) : readBe64 (byteAt b) i < 2 ^ 64 := by
  have hb := byteAt_lt b
  rw [readBe64_eq hb]
  have := hb i
  have := hb (i + 1)
  have := hb (i + 2)
  have := hb (i + 3)
  have := hb (i + 4)
  have := hb (i + 5)
  have := hb (i + 6)
  have := hb (i + 7)
  omega

theorem scSetB32V_ok {b : Spec.Bytes} (hl : b.length = 32) :
    scSetB32V (byteAt b) = some (Sc4.setB32 (byteAt b)) := by
  obtain ⟨h1, -, -, -⟩ := C44_set_b32 hl
  have h2n : 2 ^ 256 < 2 * n := by unfold n; decide
  have key : ∀ r : Sc4, r.Words → scReduceV r (bit r.checkOverflow) = some (r.reduce (bit r.checkOverflow)) := by
    intro r hr
    have := scReduceV_ok hr (c := 0) (by rw [Nat.zero_mul, Nat.add_zero]; exact lt_trans hr.lt h2n)
    rwa [Nat.zero_add] at this
  have hw : (Sc4.mk (readBe64 (byteAt b) 24) (readBe64 (byteAt b) 16) (readBe64 (byteAt b) 8)
      (readBe64 (byteAt b) 0)).Words :=
    ⟨readBe64_lt b _, readBe64_lt b _, readBe64_lt b _, readBe64_lt b _⟩
  unfold Sc4.setB32 at h1 ⊢
  unfold scSetB32V
  dsimp only at h1 ⊢
  generalize Sc4.mk (readBe64 (byteAt b) 24) (readBe64 (byteAt b) 16) (readBe64 (byteAt b) 8)
      (readBe64 (byteAt b) 0) = r at h1 hw ⊢
  refine bind_step (key r hw) ?_
  exact bind_step (scVerify_rep h1) rfl

theorem scSetB32SeckeyV_ok {b : Spec.Bytes} (hl : b.length = 32) :
    scSetB32SeckeyV (byteAt b) = some (Sc4.setB32Seckey (byteAt b)) := by
  obtain ⟨h1, h2, -, -⟩ := C44_set_b32 hl
  refine bind_step (scSetB32V_ok hl) ?_
  refine bind_step (scIsZeroV_ok h1) ?_
  exact bind_step (scVerify_rep h1) rfl

theorem scGetB32V_ok {a : Sc4} {v : Fn} (ha : a.Rep v) : scGetB32V a = some a.getB32 :=
  bind_step (scVerify_rep ha) rfl

theorem scEqV_ok {a b : Sc4} {v w : Fn} (ha : a.Rep v) (hb : b.Rep w) : scEqV a b = some (Sc4.eq a b) :=
  bind_step (scVerify_rep ha) (bind_step (scVerify_rep hb) rfl)

theorem scSplit128V_ok {a : Sc4} {v : Fn} (ha : a.Rep v) : scSplit128V a = some a.split128 := by
  obtain ⟨h1, h2, h3, h4, -⟩ := C44_split_128 ha
  have hn : 2 ^ 128 < n := by unfold n; decide
  refine bind_step (scVerify_rep ha) ?_
  refine bind_step (scVerify_ok h1 (h3.trans hn)) ?_
  exact bind_step (scVerify_ok h2 (h4.trans hn)) rfl

theorem scCmovV_ok {a b : Sc4} {v w : Fn} (ha : a.Rep v) (hb : b.Rep w) (flag : Bool) :
    scCmovV a b flag = some (Sc4.cmov a b flag) :=
  bind_step (scVerify_rep hb) (bind_step (scVerify_rep (C44_cmov ha hb flag)) rfl)

theorem withinBoundV_ok {a : Sc4} {v : Fn} (ha : a.Rep v) {bound : Spec.Bytes} (hl : bound.length = 32)
    (h : Below (Spec.beNat bound) v) : withinBoundV a bound = some () := by
  have e1 := (C44_get_b32 ha).1
  have e2 := (C44_get_b32 (C44_negate ha)).1
  refine bind_step (scGetB32V_ok ha) ?_
  refine bind_step (scNegateV_ok ha) ?_
  refine bind_step (scGetB32V_ok (C44_negate ha)) ?_
  rw [e1, e2]
  exact check_true (withinBound_ok hl h)

theorem scSplitLambdaVerify_ok {r1 r2 k : Sc4} {v1 v2 v w : Fn} (hk : k.Rep v) (hl : (Sc4.const constLambda).Rep w)
    (h1 : r1.Rep v1) (h2 : r2.Rep v2) (he : w * v2 + v1 = v) (b1 : Below 0xa2a8918ca85bafe22016d0b917e4dd77 v1)
    (b2 : Below 0x8a65287bd47179fb2be08846cea267ed v2) : scSplitLambdaVerify r1 r2 k = some () := by
  have hs := (C44_add (C44_mul hl h2) h1).1
  refine bind_step (scMulV_ok hl h2) ?_
  refine bind_step (scAddV_ok (C44_mul hl h2) h1) ?_
  refine bind_step (scEqV_ok hs hk) ?_
  refine bind_step (check_true ?_) ?_
  · rw [(C44_tests hs hk).2.2.2.2, decide_eq_true he]
  refine bind_step (withinBoundV_ok h1 (bound := k1Bound) rfl ?_) ?_
  · rw [show Spec.beNat k1Bound = 0xa2a8918ca85bafe22016d0b917e4dd77 by decide +kernel]
    exact b1
  refine withinBoundV_ok h2 (bound := k2Bound) rfl ?_
  rw [show Spec.beNat k2Bound = 0x8a65287bd47179fb2be08846cea267ed by decide +kernel]
  exact b2

theorem scSplitLambdaV_ok {a : Sc4} {v : Fn} (ha : a.Rep v) : scSplitLambdaV a = some a.splitLambda := by
  have hc : ∀ x, x < n → (Sc4.const x).Rep (scConst x) := by
    intro x hx
    obtain ⟨h1, h2⟩ := const_spec (v := x) (lt_trans hx (by unfold n; decide))
    exact Rep.of' h1 (by rw [h2]; exact hx) (by rw [h2]; rfl)
  have g1 := hc splitG1 (by unfold n; decide)
  have g2 := hc splitG2 (by unfold n; decide)
  have b1 := hc minusB1 (by unfold n; decide)
  have b2 := hc minusB2 (by unfold n; decide)
  have la := hc constLambda (by unfold n; decide)
  have c1 := (C44_mul_shift ha g1 (shift := 384) (by decide) (by decide)).2.2.2
  have c2 := (C44_mul_shift ha g2 (shift := 384) (by decide) (by decide)).2.2.2
  have r2 := (C44_add (C44_mul c1 b1) (C44_mul c2 b2)).1
  have r1 := (C44_add (C44_negate (C44_mul r2 la)) ha).1
  obtain ⟨k1, k2⟩ := splitLambda_bounds v
  have hs := (splitLambda_spec v).1
  refine bind_step (scVerify_rep ha) ?_
  refine bind_step (scMulShiftVarV_ok ha g1 (by decide) (by decide)) ?_
  refine bind_step (scMulShiftVarV_ok ha g2 (by decide) (by decide)) ?_
  refine bind_step (scMulV_ok c1 b1) ?_
  refine bind_step (scMulV_ok c2 b2) ?_
  refine bind_step (scAddV_ok (C44_mul c1 b1) (C44_mul c2 b2)) ?_
  refine bind_step (scMulV_ok r2 la) ?_
  refine bind_step (scNegateV_ok (C44_mul r2 la)) ?_
  refine bind_step (scAddV_ok (C44_negate (C44_mul r2 la)) ha) ?_
  refine bind_step (scVerify_rep r1) ?_
  refine bind_step (scVerify_rep r2) ?_
  refine bind_step (scSplitLambdaVerify_ok ha la r1 r2 ?_ k1 k2) rfl
  have h : scConst constLambda * (scSplitLambda v).2 + (scSplitLambda v).1 = v := by rwa [add_comm] at hs
  exact h

theorem toU64_shr {z : ℤ} {k : ℕ} (h0 : 0 ≤ z) (h1 : z < 2 ^ k) : toU64 z >>> k = 0 := by
  obtain ⟨m, rfl⟩ := Int.eq_ofNat_of_zero_le h0
  have hm : m < 2 ^ k := by exact_mod_cast h1
  have : toU64 (m : ℤ) ≤ m := by
    unfold toU64
    omega
  rw [Nat.shiftRight_eq_div_pow, Nat.div_eq_of_lt (by omega)]

theorem inverseV_of {x : Sc4} {v : Fn} (hx : x.Rep v) {f : S62 → Option S62}
    (hf : ∀ {y : S62}, y.Canon → y.int < n → ∃ r, f y = some r ∧ r.Canon ∧ r.int < n ∧
      (y.int = 0 → r.int = 0) ∧ (IsCoprime y.int n → r.int * y.int % n = 1)) :
    (do
      let zeroIn ← scIsZeroV x
      scVerify x
      let s ← scToSigned62V x
      let s ← f s
      let r ← scFromSigned62V s
      scVerify r
      let z ← scIsZeroV r
      check (z == zeroIn)
      some r) = (f (Sc4.toSigned62 x)).bind (fun s => some (Sc4.fromSigned62 s)) := by
  obtain ⟨r, w, e, hr, hz, hi⟩ := Sc4.inverse_of hx hf
  obtain ⟨c1, c2⟩ := Sc4.toSigned62_spec hx.words
  have hlt : x.nat < n := hx.lt
  obtain ⟨s, es, s1, s2, s3, s4⟩ := hf c1 (by rw [c2]; exact_mod_cast hlt)
  rw [es, Option.bind_some] at e
  have e : Sc4.fromSigned62 s = r := by simpa using e
  have hn : (n : ℤ) < 2 ^ 256 := by unfold n; decide
  refine bind_step (scIsZeroV_ok hx) ?_
  refine bind_step (scVerify_rep hx) ?_
  refine bind_step (bind_step (scVerify_rep hx) rfl : scToSigned62V x = some x.toSigned62) ?_
  refine bind_step es ?_
  have hfrom : scFromSigned62V s = some r := by
    obtain ⟨h0, h1, h2, h3, h4⟩ := s1
    have h4' : s.v4 < 2 ^ 8 := by
      unfold S62.int at s2
      omega
    refine bind_step (check_true (decide_eq_true (toU64_shr h0.1 h0.2))) ?_
    refine bind_step (check_true (decide_eq_true (toU64_shr h1.1 h1.2))) ?_
    refine bind_step (check_true (decide_eq_true (toU64_shr h2.1 h2.2))) ?_
    refine bind_step (check_true (decide_eq_true (toU64_shr h3.1 h3.2))) ?_
    refine bind_step (check_true (decide_eq_true (toU64_shr h4.1 h4'))) ?_
    rw [e]
    exact bind_step (scVerify_rep hr) rfl
  refine bind_step hfrom ?_
  refine bind_step (scVerify_rep hr) ?_
  refine bind_step (scIsZeroV_ok hr) ?_
  refine bind_step (check_true ?_) ?_
  · rw [(C44_tests hr hr).1, (C44_tests hx hx).1, beq_iff_eq, decide_eq_decide]
    constructor
    · rintro rfl
      by_contra h
      have := hi h
      rw [zero_mul] at this
      exact zero_ne_one this
    · exact hz
  · rw [es, Option.bind_some, e]

theorem scInverseV_ok {x : Sc4} {v : Fn} (hx : x.Rep v) : scInverseV x = Sc4.inverse? x :=
  inverseV_of hx (f := fun s => modinv64 s modinfoScalar) (C46_modinv64 modinfoScalar_ok)

theorem scInverseVarV_ok {x : Sc4} {v : Fn} (hx : x.Rep v) {fuel : ℕ} (hf : 12 ≤ fuel) :
    scInverseVarV fuel x = Sc4.inverseVar? fuel x :=
  inverseV_of hx (f := fun s => modinv64Var fuel s modinfoScalar)
    (fun h1 h2 => C46_modinv64_var modinfoScalar_ok h1 h2 hf)

end Secp.Model.Verify
