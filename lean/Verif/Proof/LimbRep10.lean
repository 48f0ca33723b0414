import Verif.Proof.FeConst
import Verif.Props.C64
import Verif.Proof.GroupLimb
import Verif.Model.Modinv32

/-!
# The 26-bit limbs as a limb representation
-/

namespace Secp.Model.Fe10
open Secp FeOps

variable [LimbInv]

theorem Rep.mono {a : Fe10} {v : Fp} {m k : ℕ} (h : a.Rep m v) (hk : m ≤ k) : a.Rep k v :=
  ⟨h.mag.mono hk, h.val⟩

theorem Rep.const {x : ℕ} (hx : x < 2 ^ 256) :
    (FeOps.feConst x : Fe10).Rep 1 (FeOps.feConst x : Fp) := by
  obtain ⟨h, ⟨h0, h1, h2, h3, h4, h5, h6, h7, h8⟩, h9⟩ := Fe10.feConst_spec hx
  change (Fe10.feConst x).Rep 1 ((x : ℕ) : Fp)
  exact ⟨⟨by omega, by omega, by omega, by omega, by omega, by omega, by omega, by omega, by omega,
    by omega⟩, by rw [h]⟩

theorem Rep.storage {x : ℕ} (hx : x < 2 ^ 256) :
    (FeOps.ofStorage x : Fe10).Rep 1 (FeOps.ofStorage x : Fp) := by
  change (fromStorage (Fe10.storageConst x)).Rep 1 ((x : ℕ) : Fp)
  obtain ⟨g, gf⟩ := Fe10.storageConst_spec hx
  obtain ⟨h, ⟨h0, h1, h2, h3, h4, h5, h6, h7, h8⟩, h9⟩ := fromStorage_spec gf
  exact ⟨⟨by omega, by omega, by omega, by omega, by omega, by omega, by omega, by omega, by omega,
    by omega⟩, by
    rw [h, g]⟩

instance instLimbRep : LimbRep Fe10 where
  Rep a m v := a.Rep m v
  mono := Rep.mono
  mul h g := C64_mul h g
  sqr {a v} h := by
    have := C64_sqr h
    rwa [pow_two] at this
  add hm h g := C64_add hm h g
  negate hm h := C64_negate hm h
  mulInt hm h := C64_mul_int hm h
  addInt hm hk h := C64_add_int hm hk h
  half hm h := C64_half hm h
  weak h := C64_normalize_weak (.inl h.mag) h.val
  normalize {a v} h := by
    obtain ⟨h1, h2, -⟩ := C64_normalize (.inl h.mag) h.val
    exact ⟨h1.mag, by rw [show FeOps.normalize a = a.normalize from rfl, h2]; exact ZMod.natCast_zmod_val v⟩
  toZero h := (C64_normalizes_to_zero (.inl h.mag) h.val).1
  setInt hk := (C64_set_int hk).2
  cmov flag h g := cmov_spec h.mag g.mag flag
  feConst h := Rep.const h
  ofStorage h := Rep.storage h

end Secp.Model.Fe10
