import Verif.Model.Field5x52
import Verif.Spec.Params

/-!
# What the limbs of field elements stand for

The documented invariants of `/repo/src/field_5x52.h:14-32`.
-/

namespace Secp.Model.Fe5

/-- The integer a list of limbs stands for (field_5x52.h:15-16). -/
def nat (a : Fe5) : ℕ :=
  a.n0 + a.n1 * 2 ^ 52 + a.n2 * 2 ^ 104 + a.n3 * 2 ^ 156 + a.n4 * 2 ^ 208

/-- Magnitude at most `m` (field_5x52.h:22-26). -/
structure Mag (a : Fe5) (m : ℕ) : Prop where
  n0 : a.n0 ≤ 2 * m * (2 ^ 52 - 1)
  n1 : a.n1 ≤ 2 * m * (2 ^ 52 - 1)
  n2 : a.n2 ≤ 2 * m * (2 ^ 52 - 1)
  n3 : a.n3 ≤ 2 * m * (2 ^ 52 - 1)
  n4 : a.n4 ≤ 2 * m * (2 ^ 48 - 1)

/-- Normalized (field_5x52.h:28-31). -/
structure Norm (a : Fe5) : Prop where
  n0 : a.n0 < 2 ^ 52
  n1 : a.n1 < 2 ^ 52
  n2 : a.n2 < 2 ^ 52
  n3 : a.n3 < 2 ^ 52
  lt : a.nat < p

/-- `a` is a valid field element of magnitude at most `m` that stands for the residue `v` modulo
`p`. -/
structure Rep (a : Fe5) (m : ℕ) (v : Fp) : Prop where
  mag : a.Mag m
  val : (a.nat : Fp) = v

end Secp.Model.Fe5
