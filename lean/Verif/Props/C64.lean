import Verif.Props.C45
import Verif.Proof.Field10x26Built

/-!
# C64: field arithmetic on 26-bit limbs (32-bit targets) is exact modulo `p`

`a.Rep m v` (Verif/Spec/Limbs10.lean): the limbs `a` obey the documented bounds of magnitude `m` and
stand for the residue `v` modulo `p`.  The model computes every 32- and 64-bit value modulo `2^32`
or `2^64`, as the machine does; a carry lost anywhere would change the results below.  The
magnitudes are those of `/repo/src/field.h`.  Normalizations are exact up to magnitude 31, and for every element
that the operations can build up to magnitude 32 (`Built`); the documented bounds on the limbs alone are not
sufficient with magnitude 32 (`C64_bounds_insufficient`).
-/

namespace Secp
open Model Model.Fe10 Spec

/-- `secp256k1_fe_mul` (field.h:258: magnitudes up to 8, result of magnitude 1). -/
theorem C64_mul {a b : Fe10} {v w : Fp} (ha : a.Rep 8 v) (hb : b.Rep 8 w) :
    (mul a b).Rep 1 (v * w) := by
  obtain ⟨h1, h2⟩ := mul_spec ha.mag.bits hb.mag.bits
  exact ⟨h1, by rw [h2, ha.val, hb.val]⟩

/-- `secp256k1_fe_sqr` (field.h:267). -/
theorem C64_sqr {a : Fe10} {v : Fp} (ha : a.Rep 8 v) : (sqr a).Rep 1 (v ^ 2) := by
  rw [sqr_eq_mul ha.mag.bits, pow_two]
  exact C64_mul ha ha

/-- `secp256k1_fe_add` (field.h:248: the sum of the magnitudes is at most 32). -/
theorem C64_add {a b : Fe10} {m k : ℕ} {v w : Fp} (hm : m + k ≤ 32) (ha : a.Rep m v)
    (hb : b.Rep k w) : (add a b).Rep (m + k) (v + w) := by
  obtain ⟨h1, h2⟩ := add_spec hm ha.mag hb.mag
  exact ⟨h1, by rw [h2, Nat.cast_add, ha.val, hb.val]⟩

/-- `secp256k1_fe_negate` (field.h:211-217: magnitude up to 31, result one more). -/
theorem C64_negate {a : Fe10} {m : ℕ} {v : Fp} (hm : m ≤ 31) (ha : a.Rep m v) :
    (a.negate m).Rep (m + 1) (-v) := by
  obtain ⟨h1, h2⟩ := negate_spec hm ha.mag
  refine ⟨h1, ?_⟩
  have h3 := congrArg (fun x : ℕ => (x : Fp)) h2
  simp only [Nat.cast_add, Nat.cast_mul, ha.val] at h3
  rw [show ((p : ℕ) : Fp) = 0 from ZMod.natCast_self p, mul_zero] at h3
  exact eq_neg_of_add_eq_zero_left h3

/-- `secp256k1_fe_mul_int` (field.h:233-239: the product of magnitude and factor is at most 32). -/
theorem C64_mul_int {a : Fe10} {m k : ℕ} {v : Fp} (hm : m * k ≤ 32) (ha : a.Rep m v) :
    (a.mulInt k).Rep (m * k) (v * k) := by
  obtain ⟨h1, h2⟩ := mulInt_spec hm ha.mag
  exact ⟨h1, by rw [h2, Nat.cast_mul, ha.val]⟩

/-- `secp256k1_fe_add_int` (field.h:224). -/
theorem C64_add_int {a : Fe10} {m k : ℕ} {v : Fp} (hm : m ≤ 31) (hk : k ≤ 0x7FFF) (ha : a.Rep m v) :
    (a.addInt k).Rep (m + 1) (v + k) := by
  obtain ⟨h1, h2⟩ := addInt_spec hm hk ha.mag
  exact ⟨h1, by rw [h2, Nat.cast_add, ha.val]⟩

/-- `secp256k1_fe_half` (field.h:329: magnitude `m` becomes `m/2 + 1`). -/
theorem C64_half {a : Fe10} {m : ℕ} {v : Fp} (hm : m ≤ 31) (ha : a.Rep m v) :
    a.half.Rep (m / 2 + 1) (v / 2) := by
  obtain ⟨h1, x, -, h2⟩ := half_spec hm ha.mag
  refine ⟨h1, ?_⟩
  have h3 := congrArg (fun x : ℕ => (x : Fp)) h2
  simp only [Nat.cast_add, Nat.cast_mul, ha.val] at h3
  rw [show ((p : ℕ) : Fp) = 0 from ZMod.natCast_self p, mul_zero, add_zero] at h3
  rw [eq_div_iff fp_two_ne_zero, mul_comm]
  exact_mod_cast h3

/-- `secp256k1_fe_set_int` (field.h:144): normalized. -/
theorem C64_set_int {k : ℕ} (hk : k ≤ 0x7FFF) : (setInt k).Norm ∧ (setInt k).Rep 1 (k : Fp) := by
  obtain ⟨h1, h2⟩ := setInt_spec hk
  exact ⟨h1, h1.mag, by rw [h2]⟩

/-- A valid element that normalizations handle: magnitude at most 31, or built by the operations of `field.h`
within the limits on magnitudes (at most 32, `C64_built_mag`). -/
def Normalizable (a : Fe10) : Prop := a.Mag 31 ∨ ∃ m, Built a m

theorem Normalizable.safe {a : Fe10} (h : Normalizable a) : a.Safe := by
  rcases h with h | ⟨m, h⟩
  · exact h.safe
  · exact h.tame.2.safe h.tame.1

/-- Elements built by the operations of `field.h` have limbs within the bounds of their magnitude, and the
magnitude never exceeds 32. -/
theorem C64_built_mag {a : Fe10} {m : ℕ} (h : Built a m) : m ≤ 32 ∧ a.Mag m := ⟨h.tame.1, h.tame.2.mag⟩

/-- `secp256k1_fe_normalize` and `secp256k1_fe_normalize_var` (field.h:111,124): both give *the* normalized limbs,
i.e. those of the representative below `p`. -/
theorem C64_normalize {a : Fe10} {v : Fp} (hn : Normalizable a) (ha : (a.nat : Fp) = v) :
    a.normalize.Norm ∧ a.normalize.nat = v.val ∧ a.normalizeVar = a.normalize := by
  obtain ⟨h1, h2⟩ := normalize_spec hn.safe
  refine ⟨h1, ?_, normalizeVar_eq hn.safe⟩
  rw [h2, ← ha, ZMod.val_natCast]

/-- Normalized limbs are unique. -/
theorem C64_norm_unique {a b : Fe10} (ha : a.Norm) (hb : b.Norm)
    (h : (a.nat : Fp) = (b.nat : Fp)) : a = b := by
  apply Norm.ext_nat ha hb
  have := congrArg ZMod.val h
  rwa [ZMod.val_natCast, ZMod.val_natCast, Nat.mod_eq_of_lt ha.lt, Nat.mod_eq_of_lt hb.lt] at this

/-- `secp256k1_fe_normalize_weak` (field.h:118): magnitude 1, same value. -/
theorem C64_normalize_weak {a : Fe10} {v : Fp} (hn : Normalizable a) (ha : (a.nat : Fp) = v) :
    a.normalizeWeak.Rep 1 v := by
  obtain ⟨h1, h2⟩ := pass1_spec hn.safe
  refine ⟨h1.mag, ?_⟩
  have h3 := congrArg (fun x : ℕ => (x : Fp)) h2
  simp only [Nat.cast_add, Nat.cast_mul, ha] at h3
  rw [show ((p : ℕ) : Fp) = 0 from ZMod.natCast_self p, mul_zero, add_zero] at h3
  exact h3.symm

/-- `secp256k1_fe_normalizes_to_zero` and `_var` (field.h:131,137). -/
theorem C64_normalizes_to_zero {a : Fe10} {v : Fp} (hn : Normalizable a) (ha : (a.nat : Fp) = v) :
    a.normalizesToZero = decide (v = 0) ∧ a.normalizesToZeroVar = decide (v = 0) := by
  have h : a.normalizesToZero = decide (v = 0) := by
    rw [normalizesToZero_spec hn.safe]
    apply decide_eq_decide.2
    rw [← ha, ZMod.natCast_eq_zero_iff, Nat.dvd_iff_mod_eq_zero]
  exact ⟨h, by rw [normalizesToZeroVar_eq hn.safe, h]⟩

/-- Limbs within the documented bounds of magnitude 32 that no operation builds. -/
def wrapFe : Fe10 := ⟨2 ^ 32 - 63 * 977, 2 ^ 32 - 63 * 64, 0, 0, 0, 0, 0, 0, 0, 63 * 2 ^ 22⟩

/-- The bounds of field_10x26.h:25-27 alone are not enough for magnitude 32, although the comment on
`secp256k1_fe_normalize` (field.h:106-110) admits every valid element: an element that is not zero modulo `p` is
normalized to zero and found to be zero, because two 32-bit sums wrap around. -/
theorem C64_bounds_insufficient : wrapFe.Mag 32 ∧ (wrapFe.nat : Fp) ≠ 0 ∧ wrapFe.normalize.nat = 0 ∧
    wrapFe.normalizeVar.nat = 0 ∧ wrapFe.normalizeWeak.nat = 0 ∧ wrapFe.normalizesToZero = true ∧
    wrapFe.normalizesToZeroVar = true ∧ ∀ m, ¬ Built wrapFe m := by
  have hz : (wrapFe.nat : Fp) ≠ 0 := by
    rw [Ne, ZMod.natCast_eq_zero_iff, Nat.dvd_iff_mod_eq_zero]
    unfold p
    decide
  have hw : wrapFe.normalizesToZero = true := by decide
  refine ⟨by constructor <;> decide, hz, by decide, by decide, by decide, hw, by decide, fun m h => ?_⟩
  have := (C64_normalizes_to_zero (.inr ⟨m, h⟩) rfl).1
  rw [hw] at this
  exact hz (of_decide_eq_true this.symm)

/-- `secp256k1_fe_cmov` (field.h:321). -/
theorem C64_cmov {r a : Fe10} (hr : r.Mag 32) (ha : a.Mag 32) :
    cmov r a 0 = r ∧ cmov r a 1 = a :=
  ⟨cmov_spec hr ha false, cmov_spec hr ha true⟩

/-- `secp256k1_fe_is_zero`, `secp256k1_fe_is_odd` and `secp256k1_fe_cmp_var` (field.h:157, 164, 180)
of normalized elements are those of the representatives below `p`. -/
theorem C64_is_zero_odd_cmp {a b : Fe10} {v w : Fp} (na : a.Norm) (nb : b.Norm) (ha : (a.nat : Fp) = v)
    (hb : (b.nat : Fp) = w) :
    a.isZero = decide (v = 0) ∧ a.isOdd = decide (v.val % 2 = 1) ∧
    cmpVar a b = if v.val > w.val then 1 else if v.val < w.val then -1 else 0 := by
  have ea : v.val = a.nat := by rw [← ha, ZMod.val_natCast, Nat.mod_eq_of_lt na.lt]
  have eb : w.val = b.nat := by rw [← hb, ZMod.val_natCast, Nat.mod_eq_of_lt nb.lt]
  refine ⟨?_, ?_, ?_⟩
  · rw [isZero_spec]
    apply decide_eq_decide.2
    rw [← ea, ZMod.val_eq_zero]
  · rw [isOdd_spec, ea]
  · rw [cmpVar_spec na nb, ea, eb]

/-- `secp256k1_fe_set_b32_mod` (field.h:188): every 32-byte string, also one that encodes a number
of `p` or more. -/
theorem C64_set_b32_mod {b : Bytes} (hl : b.length = 32) :
    (setB32Mod (byteAt b)).Rep 1 (beNat b : Fp) := by
  obtain ⟨h0, h1, h2⟩ := setB32Mod_spec (byteAt b) (byteAt_lt b)
  refine ⟨Passed.mag ⟨h0, by omega⟩, ?_⟩
  rw [h2, ← beNat_byteAt hl]

/-- `secp256k1_fe_set_b32_limit` (field.h:196): fails exactly on encodings of `p` or more, and
otherwise gives the normalized limbs of the encoded number. -/
theorem C64_set_b32_limit {b : Bytes} (hl : b.length = 32) :
    (setB32Mod (byteAt b)).setB32LimitRet = decide (beNat b < p) ∧
    (beNat b < p → (setB32Mod (byteAt b)).Norm ∧ (setB32Mod (byteAt b)).nat = beNat b) := by
  obtain ⟨h0, h1, h2⟩ := setB32Mod_spec (byteAt b) (byteAt_lt b)
  rw [← beNat_byteAt hl] at h2
  rw [setB32LimitRet_spec h0 h1, h2]
  obtain ⟨l0, l1, l2, l3, l4, l5, l6, l7, l8⟩ := h0
  exact ⟨rfl, fun h => ⟨⟨l0, l1, l2, l3, l4, l5, l6, l7, l8, by rw [h2]; exact h⟩, rfl⟩⟩

/-- `secp256k1_fe_get_b32` (field.h:202): the big endian encoding of the representative below `p`,
and setting from it gives the same limbs back. -/
theorem C64_get_b32 {a : Fe10} {v : Fp} (na : a.Norm) (ha : (a.nat : Fp) = v) :
    a.getB32.map UInt8.ofNat = beBytes 32 v.val ∧
    setB32Mod (byteAt (a.getB32.map UInt8.ofNat)) = a := by
  have ea : v.val = a.nat := by rw [← ha, ZMod.val_natCast, Nat.mod_eq_of_lt na.lt]
  refine ⟨by rw [getB32_spec na, ea], ?_⟩
  have hl : (beBytes 32 a.nat).length = 32 := Hash.beBytes_length _ _
  have hp : a.nat < 256 ^ 32 := lt_trans na.lt (by unfold p; decide)
  have hb : beNat (beBytes 32 a.nat) = a.nat := by rw [beNat_beBytes]; exact Nat.mod_eq_of_lt hp
  rw [getB32_spec na]
  obtain ⟨-, h⟩ := C64_set_b32_limit hl
  rw [hb] at h
  obtain ⟨h1, h2⟩ := h na.lt
  exact Norm.ext_nat h1 na h2

/-- The storage form (field.h:300, 308): eight 32-bit words in base `2^32`, least significant first;
converting a normalized element to it and back gives the same limbs. -/
theorem C64_storage {a : Fe10} {v : Fp} (na : a.Norm) (ha : (a.nat : Fp) = v) :
    let s := a.toStorage
    s.n0 < 2 ^ 32 ∧ s.n1 < 2 ^ 32 ∧ s.n2 < 2 ^ 32 ∧ s.n3 < 2 ^ 32 ∧ s.n4 < 2 ^ 32 ∧ s.n5 < 2 ^ 32 ∧
    s.n6 < 2 ^ 32 ∧ s.n7 < 2 ^ 32 ∧
    s.n0 + s.n1 * 2 ^ 32 + s.n2 * 2 ^ 64 + s.n3 * 2 ^ 96 + s.n4 * 2 ^ 128 + s.n5 * 2 ^ 160 + s.n6 * 2 ^ 192 +
      s.n7 * 2 ^ 224 = v.val ∧ fromStorage s = a := by
  have ea : v.val = a.nat := by rw [← ha, ZMod.val_natCast, Nat.mod_eq_of_lt na.lt]
  obtain ⟨h, hf⟩ := toStorage_spec na
  obtain ⟨h0, h1, h2, h3, h4, h5, h6, h7⟩ := id hf
  refine ⟨h0, h1, h2, h3, h4, h5, h6, h7, by rw [ea]; exact h, ?_⟩
  obtain ⟨g, gl, -⟩ := fromStorage_spec hf
  rw [h] at g
  exact gl.ext_nat na.low g

/-- `secp256k1_fe_storage_cmov` (field.h:311). -/
theorem C64_storage_cmov {r a : Fe10} (hr : r.Norm) (ha : a.Norm) :
    storageCmov r.toStorage a.toStorage 0 = r.toStorage ∧
    storageCmov r.toStorage a.toStorage 1 = a.toStorage := by
  obtain ⟨-, r0, r1, r2, r3, r4, r5, r6, r7⟩ := toStorage_spec hr
  obtain ⟨-, a0, a1, a2, a3, a4, a5, a6, a7⟩ := toStorage_spec ha
  constructor
  · unfold storageCmov
    rw [cmovLimb_zero r0, cmovLimb_zero r1, cmovLimb_zero r2, cmovLimb_zero r3, cmovLimb_zero r4,
      cmovLimb_zero r5, cmovLimb_zero r6, cmovLimb_zero r7]
  · unfold storageCmov
    rw [cmovLimb_one a0, cmovLimb_one a1, cmovLimb_one a2, cmovLimb_one a3, cmovLimb_one a4,
      cmovLimb_one a5, cmovLimb_one a6, cmovLimb_one a7]

/-- The largest limbs of magnitude `m`: `secp256k1_fe_impl_get_bounds`, field_10x26_impl.h:40-51. -/
def maxFe10 (m : ℕ) : Fe10 :=
  ⟨0x3FFFFFF * 2 * m, 0x3FFFFFF * 2 * m, 0x3FFFFFF * 2 * m, 0x3FFFFFF * 2 * m, 0x3FFFFFF * 2 * m,
    0x3FFFFFF * 2 * m, 0x3FFFFFF * 2 * m, 0x3FFFFFF * 2 * m, 0x3FFFFFF * 2 * m, 0x03FFFFF * 2 * m⟩

/-- The product of the largest admissible elements: the hypotheses of `C64_mul` hold with every
bound attained, and the limbs are computed. -/
example : (mul (maxFe10 8) (maxFe10 8)).Rep 1 ((maxFe10 8).nat * (maxFe10 8).nat) ∧
    (mul (maxFe10 8) (maxFe10 8)).nat % p = (maxFe10 8).nat * (maxFe10 8).nat % p :=
  have h : (maxFe10 8).Rep 8 ((maxFe10 8).nat : Fp) := ⟨by constructor <;> decide, rfl⟩
  ⟨C64_mul h h, by decide +kernel⟩

/-- The largest limbs of magnitude 31 are normalized correctly, with all carries at their maximum. -/
example : (maxFe10 31).normalize.nat = (maxFe10 31).nat % p := by
  rw [(C64_normalize (a := maxFe10 31) (.inl (by constructor <;> decide)) rfl).2.1, ZMod.val_natCast]

/-- An element of magnitude 32 that the operations build: the negative of 1 and of magnitude 31. -/
example : Built ((setInt 1).negate 31) 32 ∧ ((setInt 1).negate 31).normalize.nat = p - 1 := by
  have h : Built ((setInt 1).negate 31) 32 := .negate (.setInt (by norm_num)) (by norm_num) le_rfl
  refine ⟨h, ?_⟩
  rw [(C64_normalize (.inr ⟨_, h⟩) rfl).2.1, ZMod.val_natCast]
  unfold p
  decide

/-- A non-canonical zero of magnitude 1: the limbs of `p` itself. -/
example : (⟨0x3FFFC2F, 0x3FFFFBF, m26, m26, m26, m26, m26, m26, m26, m22⟩ : Fe10).Rep 31 0 ∧
    (⟨0x3FFFC2F, 0x3FFFFBF, m26, m26, m26, m26, m26, m26, m26, m22⟩ : Fe10).normalize =
      ⟨0, 0, 0, 0, 0, 0, 0, 0, 0, 0⟩ ∧
    (⟨0x3FFFC2F, 0x3FFFFBF, m26, m26, m26, m26, m26, m26, m26, m22⟩ : Fe10).isZero = false ∧
    (⟨0x3FFFC2F, 0x3FFFFBF, m26, m26, m26, m26, m26, m26, m26, m22⟩ : Fe10).normalizesToZero = true := by
  refine ⟨⟨by constructor <;> decide, ?_⟩, by decide, by decide, by decide⟩
  rw [show Fe10.nat ⟨0x3FFFC2F, 0x3FFFFBF, m26, m26, m26, m26, m26, m26, m26, m22⟩ = p by unfold p; decide,
    ZMod.natCast_self]

/-- The encodings of `p` and `p - 1` on either side of the limit. -/
example : (setB32Mod (byteAt (beBytes 32 p))).setB32LimitRet = false ∧
    (setB32Mod (byteAt (beBytes 32 (p - 1)))).setB32LimitRet = true := by
  constructor
  · rw [(C64_set_b32_limit (Hash.beBytes_length 32 _)).1, beNat_beBytes]; decide +kernel
  · rw [(C64_set_b32_limit (Hash.beBytes_length 32 _)).1, beNat_beBytes]; decide +kernel

end Secp
