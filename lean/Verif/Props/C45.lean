import Verif.Proof.Field5x52Mul
import Verif.Proof.Field5x52Ops
import Verif.Proof.Field5x52Bytes
import Verif.Model.Bytes
import Verif.Model.Objects
import Verif.Proof.Bytes

/-!
# C45: field arithmetic on 52-bit limbs is exact modulo `p`

`a.Rep m v` (Verif/Spec/Limbs.lean): the limbs `a` obey the documented bounds of magnitude `m` and
stand for the residue `v` modulo `p`.  The model computes every 64- and 128-bit value modulo `2^64`
or `2^128`, as the machine does; a carry lost anywhere would change the results below.  The
magnitudes are those of `/repo/src/field.h`.
-/

namespace Secp
open Model Model.Fe5 Spec

/-- `secp256k1_fe_mul` (field.h:258: magnitudes up to 8, result of magnitude 1). -/
theorem C45_mul {a b : Fe5} {v w : Fp} (ha : a.Rep 8 v) (hb : b.Rep 8 w) :
    (mul a b).Rep 1 (v * w) := by
  obtain ⟨h1, h2⟩ := mul_spec ha.mag.bits hb.mag.bits
  exact ⟨h1, by rw [h2, ha.val, hb.val]⟩

/-- `secp256k1_fe_sqr` (field.h:267). -/
theorem C45_sqr {a : Fe5} {v : Fp} (ha : a.Rep 8 v) : (sqr a).Rep 1 (v ^ 2) := by
  obtain ⟨h1, h2⟩ := sqr_spec ha.mag.bits
  exact ⟨h1, by rw [h2, ha.val, pow_two]⟩

/-- `secp256k1_fe_add` (field.h:248: the sum of the magnitudes is at most 32). -/
theorem C45_add {a b : Fe5} {m k : ℕ} {v w : Fp} (hm : m + k ≤ 32) (ha : a.Rep m v)
    (hb : b.Rep k w) : (add a b).Rep (m + k) (v + w) := by
  obtain ⟨h1, h2⟩ := add_spec hm ha.mag hb.mag
  exact ⟨h1, by rw [h2, Nat.cast_add, ha.val, hb.val]⟩

/-- `secp256k1_fe_negate` (field.h:211-217: magnitude up to 31, result one more). -/
theorem C45_negate {a : Fe5} {m : ℕ} {v : Fp} (hm : m ≤ 31) (ha : a.Rep m v) :
    (a.negate m).Rep (m + 1) (-v) := by
  obtain ⟨h1, h2⟩ := negate_spec hm ha.mag
  refine ⟨h1, ?_⟩
  have h3 := congrArg (fun x : ℕ => (x : Fp)) h2
  simp only [Nat.cast_add, Nat.cast_mul, ha.val] at h3
  rw [show ((p : ℕ) : Fp) = 0 from ZMod.natCast_self p, mul_zero] at h3
  exact eq_neg_of_add_eq_zero_left h3

/-- `secp256k1_fe_mul_int` (field.h:233-239: the product of magnitude and factor is at most 32). -/
theorem C45_mul_int {a : Fe5} {m k : ℕ} {v : Fp} (hm : m * k ≤ 32) (ha : a.Rep m v) :
    (a.mulInt k).Rep (m * k) (v * k) := by
  obtain ⟨h1, h2⟩ := mulInt_spec hm ha.mag
  exact ⟨h1, by rw [h2, Nat.cast_mul, ha.val]⟩

/-- `secp256k1_fe_add_int` (field.h:224). -/
theorem C45_add_int {a : Fe5} {m k : ℕ} {v : Fp} (hm : m ≤ 31) (hk : k ≤ 0x7FFF) (ha : a.Rep m v) :
    (a.addInt k).Rep (m + 1) (v + k) := by
  obtain ⟨h1, h2⟩ := addInt_spec hm hk ha.mag
  exact ⟨h1, by rw [h2, Nat.cast_add, ha.val]⟩

theorem fp_two_ne_zero : (2 : Fp) ≠ 0 := by
  intro h
  have : ((2 : ℕ) : Fp) = 0 := by exact_mod_cast h
  rw [ZMod.natCast_eq_zero_iff, Nat.dvd_iff_mod_eq_zero] at this
  revert this
  decide +kernel

/-- `secp256k1_fe_half` (field.h:329: magnitude `m` becomes `m/2 + 1`). -/
theorem C45_half {a : Fe5} {m : ℕ} {v : Fp} (hm : m ≤ 31) (ha : a.Rep m v) :
    a.half.Rep (m / 2 + 1) (v / 2) := by
  obtain ⟨h1, x, -, h2⟩ := half_spec hm ha.mag
  refine ⟨h1, ?_⟩
  have h3 := congrArg (fun x : ℕ => (x : Fp)) h2
  simp only [Nat.cast_add, Nat.cast_mul, ha.val] at h3
  rw [show ((p : ℕ) : Fp) = 0 from ZMod.natCast_self p, mul_zero, add_zero] at h3
  rw [eq_div_iff fp_two_ne_zero, mul_comm]
  exact_mod_cast h3

/-- `secp256k1_fe_set_int` (field.h:144): normalized. -/
theorem C45_set_int {k : ℕ} (hk : k ≤ 0x7FFF) : (setInt k).Norm ∧ (setInt k).Rep 1 (k : Fp) := by
  obtain ⟨h1, h2⟩ := setInt_spec hk
  exact ⟨h1, h1.mag, by rw [h2]⟩

/-- `secp256k1_fe_normalize` and `secp256k1_fe_normalize_var` (field.h:111,124) on every valid field
element, of magnitude up to 32: both give *the* normalized limbs, i.e. those of the representative
below `p`. -/
theorem C45_normalize {a : Fe5} {v : Fp} (ha : a.Rep 32 v) :
    a.normalize.Norm ∧ a.normalize.nat = v.val ∧ a.normalizeVar = a.normalize := by
  obtain ⟨h1, h2⟩ := normalize_spec ha.mag
  refine ⟨h1, ?_, normalizeVar_eq ha.mag⟩
  rw [h2, ← ha.val, ZMod.val_natCast]

/-- Normalized limbs are unique. -/
theorem C45_norm_unique {a b : Fe5} (ha : a.Norm) (hb : b.Norm)
    (h : (a.nat : Fp) = (b.nat : Fp)) : a = b := by
  apply Norm.ext_nat ha hb
  have := congrArg ZMod.val h
  rwa [ZMod.val_natCast, ZMod.val_natCast, Nat.mod_eq_of_lt ha.lt, Nat.mod_eq_of_lt hb.lt] at this

/-- `secp256k1_fe_normalize_weak` (field.h:118): magnitude 1, same value. -/
theorem C45_normalize_weak {a : Fe5} {v : Fp} (ha : a.Rep 32 v) : a.normalizeWeak.Rep 1 v := by
  obtain ⟨h1, h2⟩ := pass1_spec ha.mag
  refine ⟨h1.mag, ?_⟩
  have h3 := congrArg (fun x : ℕ => (x : Fp)) h2
  simp only [Nat.cast_add, Nat.cast_mul, ha.val] at h3
  rw [show ((p : ℕ) : Fp) = 0 from ZMod.natCast_self p, mul_zero, add_zero] at h3
  exact h3.symm

/-- `secp256k1_fe_normalizes_to_zero` and `_var` (field.h:131,137). -/
theorem C45_normalizes_to_zero {a : Fe5} {v : Fp} (ha : a.Rep 32 v) :
    a.normalizesToZero = decide (v = 0) ∧ a.normalizesToZeroVar = decide (v = 0) := by
  have h : a.normalizesToZero = decide (v = 0) := by
    rw [normalizesToZero_spec ha.mag]
    apply decide_eq_decide.2
    rw [← ha.val, ZMod.natCast_eq_zero_iff, Nat.dvd_iff_mod_eq_zero]
  exact ⟨h, by rw [normalizesToZeroVar_eq ha.mag, h]⟩

/-- `secp256k1_fe_cmov` (field.h:321). -/
theorem C45_cmov {r a : Fe5} (hr : r.Mag 32) (ha : a.Mag 32) :
    cmov r a 0 = r ∧ cmov r a 1 = a :=
  ⟨cmov_spec hr ha false, cmov_spec hr ha true⟩

/-- `secp256k1_fe_is_zero`, `secp256k1_fe_is_odd` and `secp256k1_fe_cmp_var` (field.h:157, 164, 180)
of normalized elements are those of the representatives below `p`. -/
theorem C45_is_zero_odd_cmp {a b : Fe5} {v w : Fp} (na : a.Norm) (nb : b.Norm) (ha : (a.nat : Fp) = v)
    (hb : (b.nat : Fp) = w) :
    a.isZero = decide (v = 0) ∧ a.isOdd = decide (v.val % 2 = 1) ∧
    cmpVar a b = if v.val > w.val then 1 else if v.val < w.val then -1 else 0 := by
  have ea : v.val = a.nat := by rw [← ha, ZMod.val_natCast, Nat.mod_eq_of_lt na.lt]
  have eb : w.val = b.nat := by rw [← hb, ZMod.val_natCast, Nat.mod_eq_of_lt nb.lt]
  refine ⟨?_, ?_, ?_⟩
  · rw [isZero_spec]
    apply decide_eq_decide.2
    rw [← ea, ZMod.val_eq_zero]
  · rw [isOdd_spec, ea]
  · rw [cmpVar_spec na nb, ea, eb]

/-- The byte at index `i` of a string. -/
def byteAt (b : Bytes) (i : ℕ) : ℕ := (b.getD i 0).toNat

theorem byteAt_lt (b : Bytes) (i : ℕ) : byteAt b i < 2 ^ 8 := (b.getD i 0).toNat_lt

theorem beNat_byteAt {b : Bytes} (hl : b.length = 32) : beNat b =
    byteAt b 31 + byteAt b 30 * 2 ^ 8 + byteAt b 29 * 2 ^ 16 + byteAt b 28 * 2 ^ 24 +
      byteAt b 27 * 2 ^ 32 + byteAt b 26 * 2 ^ 40 + byteAt b 25 * 2 ^ 48 + byteAt b 24 * 2 ^ 56 +
      byteAt b 23 * 2 ^ 64 + byteAt b 22 * 2 ^ 72 + byteAt b 21 * 2 ^ 80 + byteAt b 20 * 2 ^ 88 +
      byteAt b 19 * 2 ^ 96 + byteAt b 18 * 2 ^ 104 + byteAt b 17 * 2 ^ 112 + byteAt b 16 * 2 ^ 120 +
      byteAt b 15 * 2 ^ 128 + byteAt b 14 * 2 ^ 136 + byteAt b 13 * 2 ^ 144 +
      byteAt b 12 * 2 ^ 152 + byteAt b 11 * 2 ^ 160 + byteAt b 10 * 2 ^ 168 +
      byteAt b 9 * 2 ^ 176 + byteAt b 8 * 2 ^ 184 + byteAt b 7 * 2 ^ 192 + byteAt b 6 * 2 ^ 200 +
      byteAt b 5 * 2 ^ 208 + byteAt b 4 * 2 ^ 216 + byteAt b 3 * 2 ^ 224 + byteAt b 2 * 2 ^ 232 +
      byteAt b 1 * 2 ^ 240 + byteAt b 0 * 2 ^ 248 := by
  match b, hl with
  | [a0, a1, a2, a3, a4, a5, a6, a7, a8, a9, a10, a11, a12, a13, a14, a15,
      a16, a17, a18, a19, a20, a21, a22, a23, a24, a25, a26, a27, a28, a29, a30, a31], _ =>
    simp only [beNat, byteAt, List.foldl_cons, List.foldl_nil, List.getD_cons_zero,
      List.getD_cons_succ]
    omega

/-- `secp256k1_fe_set_b32_mod` (field.h:188): every 32-byte string, also one that encodes a number
of `p` or more. -/
theorem C45_set_b32_mod {b : Bytes} (hl : b.length = 32) :
    (setB32Mod (byteAt b)).Rep 1 (beNat b : Fp) := by
  obtain ⟨h0, h1, h2, h3, h4, h5⟩ := setB32Mod_spec (byteAt b) (byteAt_lt b)
  refine ⟨by constructor <;> omega, ?_⟩
  rw [h5, ← beNat_byteAt hl]

/-- `secp256k1_fe_set_b32_limit` (field.h:196): fails exactly on encodings of `p` or more, and
otherwise gives the normalized limbs of the encoded number. -/
theorem C45_set_b32_limit {b : Bytes} (hl : b.length = 32) :
    (setB32Mod (byteAt b)).setB32LimitRet = decide (beNat b < p) ∧
    (beNat b < p → (setB32Mod (byteAt b)).Norm ∧ (setB32Mod (byteAt b)).nat = beNat b) := by
  obtain ⟨h0, h1, h2, h3, h4, h5⟩ := setB32Mod_spec (byteAt b) (byteAt_lt b)
  rw [← beNat_byteAt hl] at h5
  rw [setB32LimitRet_spec h0 h1 h2 h3 h4, h5]
  exact ⟨rfl, fun h => ⟨⟨h0, h1, h2, h3, by rw [h5]; exact h⟩, rfl⟩⟩

/-- `secp256k1_fe_get_b32` (field.h:202): the big endian encoding of the representative below `p`,
and setting from it gives the same limbs back. -/
theorem C45_get_b32 {a : Fe5} {v : Fp} (na : a.Norm) (ha : (a.nat : Fp) = v) :
    a.getB32.map UInt8.ofNat = beBytes 32 v.val ∧
    setB32Mod (byteAt (a.getB32.map UInt8.ofNat)) = a := by
  have ea : v.val = a.nat := by rw [← ha, ZMod.val_natCast, Nat.mod_eq_of_lt na.lt]
  refine ⟨by rw [getB32_spec na, ea], ?_⟩
  have hl : (beBytes 32 a.nat).length = 32 := Hash.beBytes_length _ _
  have hp : a.nat < 256 ^ 32 := lt_trans na.lt (by unfold p; decide)
  have hb : beNat (beBytes 32 a.nat) = a.nat := by rw [beNat_beBytes]; exact Nat.mod_eq_of_lt hp
  rw [getB32_spec na]
  obtain ⟨-, h⟩ := C45_set_b32_limit hl
  rw [hb] at h
  obtain ⟨h1, h2⟩ := h na.lt
  exact Norm.ext_nat h1 na h2

/-- The storage form (field.h:300, 308): four 64-bit words in base `2^64`, least significant first;
converting a normalized element to it and back gives the same limbs. -/
theorem C45_storage {a : Fe5} {v : Fp} (na : a.Norm) (ha : (a.nat : Fp) = v) :
    let s := a.toStorage
    s.n0 < 2 ^ 64 ∧ s.n1 < 2 ^ 64 ∧ s.n2 < 2 ^ 64 ∧ s.n3 < 2 ^ 64 ∧
    s.n0 + s.n1 * 2 ^ 64 + s.n2 * 2 ^ 128 + s.n3 * 2 ^ 192 = v.val ∧ fromStorage s = a := by
  have ea : v.val = a.nat := by rw [← ha, ZMod.val_natCast, Nat.mod_eq_of_lt na.lt]
  obtain ⟨h, h0, h1, h2, h3⟩ := toStorage_spec na
  refine ⟨h0, h1, h2, h3, by rw [ea]; exact h, ?_⟩
  obtain ⟨g, g0, g1, g2, g3, -⟩ := fromStorage_spec h0 h1 h2 h3
  rw [h] at g
  exact Norm.ext_nat ⟨g0, g1, g2, g3, by rw [g]; exact na.lt⟩ na g

/-- The largest limbs of magnitude 8. -/
def maxFe8 : Fe5 :=
  ⟨16 * (2 ^ 52 - 1), 16 * (2 ^ 52 - 1), 16 * (2 ^ 52 - 1), 16 * (2 ^ 52 - 1), 16 * (2 ^ 48 - 1)⟩

theorem maxFe8_rep : maxFe8.Rep 8 (maxFe8.nat : Fp) :=
  ⟨by constructor <;> decide, rfl⟩

/-- The product of the largest admissible elements: the hypotheses of `C45_mul` hold with every
bound attained, and the limbs are computed. -/
example : (mul maxFe8 maxFe8).Rep 1 (maxFe8.nat * maxFe8.nat) ∧
    (mul maxFe8 maxFe8).nat % p = maxFe8.nat * maxFe8.nat % p :=
  ⟨C45_mul maxFe8_rep maxFe8_rep, by decide +kernel⟩

/-- A non-canonical zero of magnitude 1: the limbs of `p` itself. -/
example : (⟨feP0, m52, m52, m52, m48⟩ : Fe5).Rep 32 0 ∧
    (⟨feP0, m52, m52, m52, m48⟩ : Fe5).normalize = ⟨0, 0, 0, 0, 0⟩ ∧
    (⟨feP0, m52, m52, m52, m48⟩ : Fe5).isZero = false ∧
    (⟨feP0, m52, m52, m52, m48⟩ : Fe5).normalizesToZero = true := by
  refine ⟨⟨by constructor <;> decide, ?_⟩, by decide, by decide, by decide⟩
  rw [show Fe5.nat ⟨feP0, m52, m52, m52, m48⟩ = p by unfold p; decide, ZMod.natCast_self]

/-- The encodings of `p` and `p - 1` on either side of the limit. -/
example : (setB32Mod (byteAt (beBytes 32 p))).setB32LimitRet = false ∧
    (setB32Mod (byteAt (beBytes 32 (p - 1)))).setB32LimitRet = true := by
  constructor
  · rw [(C45_set_b32_limit (Hash.beBytes_length 32 _)).1, beNat_beBytes]; decide +kernel
  · rw [(C45_set_b32_limit (Hash.beBytes_length 32 _)).1, beNat_beBytes]; decide +kernel

end Secp
