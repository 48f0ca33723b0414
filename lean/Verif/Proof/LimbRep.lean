import Verif.Proof.Primes
import Verif.Spec.Curve
import Verif.Model.Group

/-!
# Limb representations of field elements

What the point code needs to know about a field implementation: the bounds on its limbs and that its
operations are exact within them.  Instances: the 52-bit limbs (`Verif/Proof/LimbRep5.lean`) and the
26-bit limbs (`Verif/Proof/LimbRep10.lean`).
-/

namespace Secp.Model
open Secp FeOps

/-- `Rep a m v`: the limbs `a` have magnitude at most `m` and stand for `v`. -/
class LimbRep (α : Type) [FeOps α] where
  Rep : α → ℕ → Fp → Prop
  mono : ∀ {a : α} {m k : ℕ} {v : Fp}, Rep a m v → m ≤ k → Rep a k v
  mul : ∀ {a b : α} {v w : Fp}, Rep a 8 v → Rep b 8 w → Rep (FeOps.mul a b) 1 (FeOps.mul v w)
  sqr : ∀ {a : α} {v : Fp}, Rep a 8 v → Rep (FeOps.sqr a) 1 (FeOps.sqr v)
  add : ∀ {a b : α} {m k : ℕ} {v w : Fp}, m + k ≤ 32 → Rep a m v → Rep b k w →
    Rep (FeOps.add a b) (m + k) (FeOps.add v w)
  negate : ∀ {a : α} {m : ℕ} {v : Fp}, m ≤ 31 → Rep a m v →
    Rep (FeOps.negate a m) (m + 1) (FeOps.negate v m)
  mulInt : ∀ {a : α} {m k : ℕ} {v : Fp}, m * k ≤ 32 → Rep a m v →
    Rep (FeOps.mulInt a k) (m * k) (FeOps.mulInt v k)
  addInt : ∀ {a : α} {m k : ℕ} {v : Fp}, m ≤ 31 → k ≤ 0x7FFF → Rep a m v →
    Rep (FeOps.addInt a k) (m + 1) (FeOps.addInt v k)
  half : ∀ {a : α} {m : ℕ} {v : Fp}, m ≤ 31 → Rep a m v → Rep (FeOps.half a) (m / 2 + 1) (FeOps.half v)
  weak : ∀ {a : α} {v : Fp}, Rep a 31 v → Rep (FeOps.normalizeWeak a) 1 (FeOps.normalizeWeak v)
  normalize : ∀ {a : α} {v : Fp}, Rep a 31 v → Rep (FeOps.normalize a) 1 (FeOps.normalize v)
  toZero : ∀ {a : α} {v : Fp}, Rep a 31 v → FeOps.normalizesToZero a = FeOps.normalizesToZero v
  setInt : ∀ {k : ℕ}, k ≤ 0x7FFF → Rep (FeOps.setInt k : α) 1 (FeOps.setInt k : Fp)
  cmov : ∀ {a b : α} {v w : Fp} (flag : Bool), Rep a 32 v → Rep b 32 w →
    FeOps.cmov a b flag = if flag then b else a
  feConst : ∀ {k : ℕ}, k < 2 ^ 256 → Rep (FeOps.feConst k : α) 1 (FeOps.feConst k : Fp)
  ofStorage : ∀ {k : ℕ}, k < 2 ^ 256 → Rep (FeOps.ofStorage k : α) 1 (FeOps.ofStorage k : Fp)

namespace LimbRep

variable {α : Type} [FeOps α] [LimbRep α] {a b : α} {v w : Fp} {m k : ℕ}

theorem Rep.mono (h : Rep a m v) (hk : m ≤ k) : Rep a k v := LimbRep.mono h hk

theorem Rep.mul' (ha : Rep a m v) (hb : Rep b k w) (hm : m ≤ 8 := by omega)
    (hk : k ≤ 8 := by omega) : Rep (FeOps.mul a b) 1 (FeOps.mul v w) :=
  LimbRep.mul (ha.mono hm) (hb.mono hk)

theorem Rep.sqr' (ha : Rep a m v) (hm : m ≤ 8 := by omega) : Rep (FeOps.sqr a) 1 (FeOps.sqr v) :=
  LimbRep.sqr (ha.mono hm)

theorem Rep.add' (ha : Rep a m v) (hb : Rep b k w) (hm : m + k ≤ 32 := by omega) :
    Rep (FeOps.add a b) (m + k) (FeOps.add v w) := LimbRep.add hm ha hb

theorem Rep.negate' (ha : Rep a m v) (k : ℕ) (hk : m ≤ k := by omega) (hm : k ≤ 31 := by omega) :
    Rep (FeOps.negate a k) (k + 1) (FeOps.negate v k) := LimbRep.negate hm (ha.mono hk)

theorem Rep.mulInt' (ha : Rep a m v) (k : ℕ) (hm : m * k ≤ 32 := by omega) :
    Rep (FeOps.mulInt a k) (m * k) (FeOps.mulInt v k) := LimbRep.mulInt hm ha

theorem Rep.addInt' (ha : Rep a m v) (k : ℕ) (hm : m ≤ 31 := by omega)
    (hk : k ≤ 0x7FFF := by decide) : Rep (FeOps.addInt a k) (m + 1) (FeOps.addInt v k) :=
  LimbRep.addInt hm hk ha

theorem Rep.half' (ha : Rep a m v) (hm : m ≤ 31 := by omega) :
    Rep (FeOps.half a) (m / 2 + 1) (FeOps.half v) := LimbRep.half hm ha

theorem Rep.weak (ha : Rep a m v) (hm : m ≤ 31 := by omega) :
    Rep (FeOps.normalizeWeak a) 1 (FeOps.normalizeWeak v) := LimbRep.weak (ha.mono hm)

theorem Rep.normalize' (ha : Rep a m v) (hm : m ≤ 31 := by omega) :
    Rep (FeOps.normalize a) 1 (FeOps.normalize v) := LimbRep.normalize (ha.mono hm)

theorem Rep.toZero (ha : Rep a m v) (hm : m ≤ 31 := by omega) :
    FeOps.normalizesToZero a = FeOps.normalizesToZero v := LimbRep.toZero (ha.mono hm)

theorem Rep.int (k : ℕ) (hk : k ≤ 0x7FFF := by decide) :
    Rep (FeOps.setInt k : α) 1 (FeOps.setInt k : Fp) := LimbRep.setInt hk

theorem Rep.cmov' (ha : Rep a m v) (hb : Rep b k w) (flag : Bool) (hm : m ≤ 32 := by omega)
    (hk : k ≤ 32 := by omega) :
    Rep (FeOps.cmov a b flag) (max m k) (FeOps.cmov v w flag) := by
  rw [LimbRep.cmov flag (ha.mono hm) (hb.mono hk)]
  cases flag
  · exact ha.mono (le_max_left _ _)
  · exact hb.mono (le_max_right _ _)

theorem Rep.equal (ha : Rep a 1 v) (hb : Rep b m w) (hm : m ≤ 29 := by omega) :
    FeOps.equal a b = FeOps.equal v w := ((ha.negate' 1).add' hb).toZero

theorem Rep.sqrN (ha : Rep a 1 v) : ∀ k, Rep (FeOps.sqrN a k) 1 (FeOps.sqrN v k)
  | 0 => ha
  | k + 1 => (Rep.sqrN ha k).sqr'

theorem Rep.sqrt (ha : Rep a m v) (hm : m ≤ 8 := by omega) :
    Rep (FeOps.sqrt a).1 1 (FeOps.sqrt v).1 ∧ (FeOps.sqrt a).2 = (FeOps.sqrt v).2 := by
  have x2 := ha.sqr'.mul' ha
  have x3 := x2.sqr'.mul' ha
  have x6 := (x3.sqrN 3).mul' x3
  have x9 := (x6.sqrN 3).mul' x3
  have x11 := (x9.sqrN 2).mul' x2
  have x22 := (x11.sqrN 11).mul' x11
  have x44 := (x22.sqrN 22).mul' x22
  have x88 := (x44.sqrN 44).mul' x44
  have x176 := (x88.sqrN 88).mul' x88
  have x220 := (x176.sqrN 44).mul' x44
  have x223 := (x220.sqrN 3).mul' x3
  have t1 := (x223.sqrN 23).mul' x22
  have t1 := (t1.sqrN 6).mul' x2
  have t1 := t1.sqr'
  have r := t1.sqr'
  have t1 := r.sqr'
  unfold FeOps.sqrt
  exact ⟨r, t1.equal ha⟩

end LimbRep

end Secp.Model
