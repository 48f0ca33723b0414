import Verif.Model.Scalar4x64
import Verif.Spec.Params

/-!
# What the limbs of scalars stand for
-/

namespace Secp.Model.Sc4

/-- The integer four words stand for: `d[0]` is the least significant. -/
def nat (a : Sc4) : ℕ := a.d0 + a.d1 * 2 ^ 64 + a.d2 * 2 ^ 128 + a.d3 * 2 ^ 192

/-- Every word fits `uint64_t`. -/
structure Words (a : Sc4) : Prop where
  d0 : a.d0 < 2 ^ 64
  d1 : a.d1 < 2 ^ 64
  d2 : a.d2 < 2 ^ 64
  d3 : a.d3 < 2 ^ 64

/-- The words are those of the number in `[0, n)` that represents the residue `v`. -/
structure Rep (a : Sc4) (v : Fn) : Prop where
  words : a.Words
  val : a.nat = v.val

end Secp.Model.Sc4
