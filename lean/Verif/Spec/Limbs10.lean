import Verif.Model.Field10x26
import Verif.Spec.Params

/-!
# What the 32-bit limbs of field elements stand for

The documented invariants of `/repo/src/field_10x26.h:15-35`.
-/

namespace Secp.Model.Fe10

/-- The integer a list of limbs stands for (field_10x26.h:16). -/
def nat (a : Fe10) : ℕ :=
  a.n0 + a.n1 * 2 ^ 26 + a.n2 * 2 ^ 52 + a.n3 * 2 ^ 78 + a.n4 * 2 ^ 104 + a.n5 * 2 ^ 130 + a.n6 * 2 ^ 156 +
    a.n7 * 2 ^ 182 + a.n8 * 2 ^ 208 + a.n9 * 2 ^ 234

/-- Magnitude at most `m` (field_10x26.h:25-27). -/
structure Mag (a : Fe10) (m : ℕ) : Prop where
  n0 : a.n0 ≤ 2 * m * (2 ^ 26 - 1)
  n1 : a.n1 ≤ 2 * m * (2 ^ 26 - 1)
  n2 : a.n2 ≤ 2 * m * (2 ^ 26 - 1)
  n3 : a.n3 ≤ 2 * m * (2 ^ 26 - 1)
  n4 : a.n4 ≤ 2 * m * (2 ^ 26 - 1)
  n5 : a.n5 ≤ 2 * m * (2 ^ 26 - 1)
  n6 : a.n6 ≤ 2 * m * (2 ^ 26 - 1)
  n7 : a.n7 ≤ 2 * m * (2 ^ 26 - 1)
  n8 : a.n8 ≤ 2 * m * (2 ^ 26 - 1)
  n9 : a.n9 ≤ 2 * m * (2 ^ 22 - 1)

/-- Normalized (field_10x26.h:29-32). -/
structure Norm (a : Fe10) : Prop where
  n0 : a.n0 < 2 ^ 26
  n1 : a.n1 < 2 ^ 26
  n2 : a.n2 < 2 ^ 26
  n3 : a.n3 < 2 ^ 26
  n4 : a.n4 < 2 ^ 26
  n5 : a.n5 < 2 ^ 26
  n6 : a.n6 < 2 ^ 26
  n7 : a.n7 < 2 ^ 26
  n8 : a.n8 < 2 ^ 26
  lt : a.nat < p

/-- `a` is a valid field element of magnitude at most `m` that stands for the residue `v` modulo
`p`. -/
structure Rep (a : Fe10) (m : ℕ) (v : Fp) : Prop where
  mag : a.Mag m
  val : (a.nat : Fp) = v

/-- The field elements that the operations of `field.h` can build, with the magnitudes that
`/repo/src/field_impl.h:166-450` (the `VERIFY` versions) assigns to them and within the limits it checks.
`secp256k1_fe_get_bounds` is not included: only the tests call it. -/
inductive Built : Fe10 → ℕ → Prop where
  /-- any normalized element; in particular the results of `secp256k1_fe_set_b32_limit`, of the three
  normalizations and of the inverses -/
  | norm {a : Fe10} : a.Norm → Built a 1
  | zero : Built (setInt 0) 0
  | setInt {k : ℕ} : k ≤ 0x7FFF → Built (setInt k) 1
  | setB32Mod {b : ℕ → ℕ} : (∀ i, b i < 256) → Built (setB32Mod b) 1
  | normalizeWeak {a : Fe10} {m : ℕ} : Built a m → m ≤ 32 → Built a.normalizeWeak 1
  | add {a b : Fe10} {m k : ℕ} : Built a m → Built b k → m + k ≤ 32 → Built (add a b) (m + k)
  | addInt {a : Fe10} {m k : ℕ} : Built a m → m + 1 ≤ 32 → k ≤ 0x7FFF → Built (a.addInt k) (m + 1)
  | mulInt {a : Fe10} {m k : ℕ} : Built a m → m * k ≤ 32 → Built (a.mulInt k) (m * k)
  | negate {a : Fe10} {m k : ℕ} : Built a m → m ≤ k → k ≤ 31 → Built (a.negate k) (k + 1)
  | half {a : Fe10} {m : ℕ} : Built a m → m < 32 → Built a.half (m / 2 + 1)
  | mul {a b : Fe10} {m k : ℕ} : Built a m → Built b k → m ≤ 8 → k ≤ 8 → Built (mul a b) 1
  | sqr {a : Fe10} {m : ℕ} : Built a m → m ≤ 8 → Built (sqr a) 1
  | cmov {a b : Fe10} {m k : ℕ} (flag : Bool) : Built a m → Built b k → m ≤ 32 → k ≤ 32 →
      Built (cmov a b (if flag then 1 else 0)) (max m k)
  | fromStorage {s : FeStorage8} : s.n0 < 2 ^ 32 → s.n1 < 2 ^ 32 → s.n2 < 2 ^ 32 → s.n3 < 2 ^ 32 →
      s.n4 < 2 ^ 32 → s.n5 < 2 ^ 32 → s.n6 < 2 ^ 32 → s.n7 < 2 ^ 32 → Built (fromStorage s) 1

end Secp.Model.Fe10
