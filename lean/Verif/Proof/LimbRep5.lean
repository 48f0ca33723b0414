import Verif.Props.C45
import Verif.Proof.GroupLimb
import Verif.Proof.FeConst

/-!
# The 52-bit limbs as a limb representation
-/

namespace Secp.Model.Fe5
open Secp FeOps

set_option linter.unusedSectionVars false

variable [LimbInv] {a b : Fe5} {v w : Fp} {m k : ℕ}

theorem Rep.mono (h : a.Rep m v) (hk : m ≤ k) : a.Rep k v := ⟨h.mag.mono hk, h.val⟩

theorem Rep.mul' (ha : a.Rep m v) (hb : b.Rep k w) (hm : m ≤ 8 := by omega)
    (hk : k ≤ 8 := by omega) : (FeOps.mul a b).Rep 1 (FeOps.mul v w) :=
  C45_mul (ha.mono hm) (hb.mono hk)

theorem Rep.sqr' (ha : a.Rep m v) (hm : m ≤ 8 := by omega) : (FeOps.sqr a).Rep 1 (FeOps.sqr v) := by
  have := C45_sqr (ha.mono hm)
  rwa [pow_two] at this

theorem Rep.add' (ha : a.Rep m v) (hb : b.Rep k w) (hm : m + k ≤ 32 := by omega) :
    (FeOps.add a b).Rep (m + k) (FeOps.add v w) := C45_add hm ha hb

theorem Rep.negate' (ha : a.Rep m v) (k : ℕ) (hk : m ≤ k := by omega) (hm : k ≤ 31 := by omega) :
    (FeOps.negate a k).Rep (k + 1) (FeOps.negate v k) := C45_negate hm (ha.mono hk)

theorem Rep.mulInt' (ha : a.Rep m v) (k : ℕ) (hm : m * k ≤ 32 := by omega) :
    (FeOps.mulInt a k).Rep (m * k) (FeOps.mulInt v k) := C45_mul_int hm ha

theorem Rep.addInt' (ha : a.Rep m v) (k : ℕ) (hm : m ≤ 31 := by omega)
    (hk : k ≤ 0x7FFF := by decide) : (FeOps.addInt a k).Rep (m + 1) (FeOps.addInt v k) :=
  C45_add_int hm hk ha

theorem Rep.half' (ha : a.Rep m v) (hm : m ≤ 31 := by omega) :
    (FeOps.half a).Rep (m / 2 + 1) (FeOps.half v) := C45_half hm ha

theorem Rep.weak (ha : a.Rep m v) (hm : m ≤ 32 := by omega) :
    (FeOps.normalizeWeak a).Rep 1 (FeOps.normalizeWeak v) := C45_normalize_weak (ha.mono hm)

theorem Rep.normalize' (ha : a.Rep m v) (hm : m ≤ 32 := by omega) :
    (FeOps.normalize a).Rep 1 (FeOps.normalize v) := by
  obtain ⟨h1, h2, -⟩ := C45_normalize (ha.mono hm)
  exact ⟨h1.mag, by rw [show FeOps.normalize a = a.normalize from rfl, h2]; exact ZMod.natCast_zmod_val v⟩

theorem Rep.toZero (ha : a.Rep m v) (hm : m ≤ 32 := by omega) :
    FeOps.normalizesToZero a = FeOps.normalizesToZero v := (C45_normalizes_to_zero (ha.mono hm)).1

theorem Rep.int (k : ℕ) (hk : k ≤ 0x7FFF := by decide) :
    (FeOps.setInt k : Fe5).Rep 1 (FeOps.setInt k : Fp) := (C45_set_int hk).2

theorem Rep.cmov' (ha : a.Rep m v) (hb : b.Rep k w) (flag : Bool) (hm : m ≤ 32 := by omega)
    (hk : k ≤ 32 := by omega) :
    (FeOps.cmov a b flag).Rep (max m k) (FeOps.cmov v w flag) := by
  have e : FeOps.cmov a b flag = if flag then b else a :=
    cmov_spec (ha.mono hm).mag (hb.mono hk).mag flag
  rw [e]
  cases flag
  · exact ha.mono (le_max_left _ _)
  · exact hb.mono (le_max_right _ _)

theorem Rep.const {x : ℕ} (hx : x < 2 ^ 256) :
    (FeOps.feConst x : Fe5).Rep 1 (FeOps.feConst x : Fp) := by
  obtain ⟨h, h0, h1, h2, h3, h4⟩ := Fe5.feConst_spec hx
  change (Fe5.feConst x).Rep 1 ((x : ℕ) : Fp)
  exact ⟨⟨by omega, by omega, by omega, by omega, by omega⟩, by
    rw [h]⟩

theorem Rep.storage {x : ℕ} (hx : x < 2 ^ 256) :
    (FeOps.ofStorage x : Fe5).Rep 1 (FeOps.ofStorage x : Fp) := by
  change (fromStorage (Fe5.storageConst x)).Rep 1 ((x : ℕ) : Fp)
  obtain ⟨g, g0, g1, g2, g3⟩ := Fe5.storageConst_spec hx
  obtain ⟨h, h0, h1, h2, h3, h4⟩ := fromStorage_spec g0 g1 g2 g3
  exact ⟨⟨by omega, by omega, by omega, by omega, by omega⟩, by
    rw [h, g]⟩

instance instLimbRep : LimbRep Fe5 where
  Rep a m v := a.Rep m v
  mono := Rep.mono
  mul h g := h.mul' g
  sqr h := h.sqr'
  add hm h g := h.add' g hm
  negate hm h := h.negate' _ le_rfl hm
  mulInt hm h := h.mulInt' _ hm
  addInt hm hk h := h.addInt' _ hm hk
  half hm h := h.half' hm
  weak h := h.weak
  normalize h := h.normalize'
  toZero h := h.toZero
  setInt hk := Rep.int _ hk
  cmov flag h g := cmov_spec h.mag g.mag flag
  feConst h := Rep.const h
  ofStorage h := Rep.storage h

end Secp.Model.Fe5
