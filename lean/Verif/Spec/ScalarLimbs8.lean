import Verif.Model.Scalar8x32
import Verif.Spec.Params

/-!
# What the 32-bit limbs of scalars stand for
-/

namespace Secp.Model

/-- The integer a list of 32-bit words stands for: the head is the least significant. -/
def words32 : List ℕ → ℕ
  | [] => 0
  | w :: ws => w + 2 ^ 32 * words32 ws

namespace Sc8

/-- The integer eight words stand for: `d[0]` is the least significant. -/
def nat (a : Sc8) : ℕ :=
  a.d0 + a.d1 * 2 ^ 32 + a.d2 * 2 ^ 64 + a.d3 * 2 ^ 96 + a.d4 * 2 ^ 128 + a.d5 * 2 ^ 160 +
    a.d6 * 2 ^ 192 + a.d7 * 2 ^ 224

/-- Every word fits `uint32_t`. -/
structure Words (a : Sc8) : Prop where
  d0 : a.d0 < 2 ^ 32
  d1 : a.d1 < 2 ^ 32
  d2 : a.d2 < 2 ^ 32
  d3 : a.d3 < 2 ^ 32
  d4 : a.d4 < 2 ^ 32
  d5 : a.d5 < 2 ^ 32
  d6 : a.d6 < 2 ^ 32
  d7 : a.d7 < 2 ^ 32

/-- The words are those of the number in `[0, n)` that represents the residue `v`. -/
structure Rep (a : Sc8) (v : Fn) : Prop where
  words : a.Words
  val : a.nat = v.val

end Sc8
end Secp.Model
