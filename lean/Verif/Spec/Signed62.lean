import Verif.Model.Modinv64

/-!
# What signed 62-bit limbs stand for

`/repo/src/modinv64.h:16-22`.
-/

namespace Secp.Model

/-- "Its value is sum(v[i] * 2^(62*i), i=0..4)", modinv64.h:16-18. -/
def S62.int (a : S62) : ℤ :=
  a.v0 + a.v1 * 2 ^ 62 + a.v2 * 2 ^ 124 + a.v3 * 2 ^ 186 + a.v4 * 2 ^ 248

/-- The value of a list of limbs. -/
def limbsInt : List ℤ → ℤ
  | [] => 0
  | a :: l => a + 2 ^ 62 * limbsInt l

/-- All limbs in `[0, 2^62)`, as modinv64.h:36 promises of the output. -/
structure S62.Canon (a : S62) : Prop where
  v0 : 0 ≤ a.v0 ∧ a.v0 < 2 ^ 62
  v1 : 0 ≤ a.v1 ∧ a.v1 < 2 ^ 62
  v2 : 0 ≤ a.v2 ∧ a.v2 < 2 ^ 62
  v3 : 0 ≤ a.v3 ∧ a.v3 < 2 ^ 62
  v4 : 0 ≤ a.v4 ∧ a.v4 < 2 ^ 62

/-- What modinv64.h:24-30 requires of a modulus: odd, in `[3, 2^256]`, with its inverse modulo
`2^62`.  The limbs are smaller than `2^62` in absolute value. -/
structure Modinfo.Ok (M : Modinfo) (m : ℤ) : Prop where
  val : M.modulus.int = m
  odd : m % 2 = 1
  ge : 3 ≤ m
  le : m ≤ 2 ^ 256
  inv : (M.inv62 : ℤ) * m % 2 ^ 62 = 1
  l0 : |M.modulus.v0| < 2 ^ 62
  l1 : |M.modulus.v1| < 2 ^ 62
  l2 : |M.modulus.v2| < 2 ^ 62
  l3 : |M.modulus.v3| < 2 ^ 62
  l4 : |M.modulus.v4| < 2 ^ 62

end Secp.Model
