import Verif.Model.Modinv32

/-!
# What signed 30-bit limbs stand for

`/repo/src/modinv32.h:12-17`.
-/

namespace Secp.Model.M32

/-- "Its value is sum(v[i] * 2^(30*i), i=0..8)", modinv32.h:12-14. -/
def int30 : List ℤ → ℤ
  | [] => 0
  | a :: l => a + 2 ^ 30 * int30 l

/-- Nine limbs in `[0, 2^30)`, as modinv32.h:31 promises of the output. -/
structure Canon (a : List ℤ) : Prop where
  len : a.length = 9
  limb : ∀ x ∈ a, 0 ≤ x ∧ x < 2 ^ 30

/-- What modinv32.h:19-25 requires of a modulus: odd, in `[3, 2^256]`, with its inverse modulo
`2^30`.  The limbs are smaller than `2^30` in absolute value. -/
structure Modinfo.Ok (M : Modinfo) (m : ℤ) : Prop where
  len : M.modulus.length = 9
  val : int30 M.modulus = m
  odd : m % 2 = 1
  ge : 3 ≤ m
  le : m ≤ 2 ^ 256
  inv : (M.inv30 : ℤ) * m % 2 ^ 30 = 1
  limb : ∀ x ∈ M.modulus, |x| < 2 ^ 30

end Secp.Model.M32
