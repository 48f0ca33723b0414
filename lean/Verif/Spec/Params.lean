/-!
# secp256k1 domain parameters (SEC 2, section 2.4.1)

Only numbers: the field prime `p`, the group order `n`, the generator coordinates.
-/

namespace Secp

/-- The field prime, `2^256 - 2^32 - 977`. -/
def p : Nat := 0xFFFFFFFFFFFFFFFFFFFFFFFFFFFFFFFFFFFFFFFFFFFFFFFFFFFFFFFEFFFFFC2F

/-- The order of the generator. -/
def n : Nat := 0xFFFFFFFFFFFFFFFFFFFFFFFFFFFFFFFEBAAEDCE6AF48A03BBFD25E8CD0364141

/-- x coordinate of the generator. -/
def gx : Nat := 0x79BE667EF9DCBBAC55A06295CE870B07029BFCDB2DCE28D959F2815B16F81798

/-- y coordinate of the generator. -/
def gy : Nat := 0x483ADA7726A3C4655DA4FBFC0E1108A8FD17B448A68554199C47D08FFB10D4B8

theorem p_eq : p = 2 ^ 256 - 2 ^ 32 - 977 := by decide
theorem n_lt_p : n < p := by decide
theorem p_pos : 0 < p := by decide
theorem n_pos : 0 < n := by decide

attribute [irreducible] p n gx gy

end Secp
