import Verif.Model.Int128Struct

/-!
# What a pair of 64-bit words stands for

`/repo/src/int128_struct.h:7-12`.
-/

namespace Secp

open Model

/-- Both words are `uint64_t`. -/
def Wide (r : I128) : Prop := r.lo < 2 ^ 64 ∧ r.hi < 2 ^ 64

/-- The unsigned number a pair of words stands for -/
def uval (r : I128) : ℕ := r.hi * 2 ^ 64 + r.lo

/-- The signed number a pair of words stands for, in two's complement -/
def sval (r : I128) : ℤ := if r.hi < 2 ^ 63 then (uval r : ℤ) else (uval r : ℤ) - 2 ^ 128

/-- `int64_t` -/
def IsI64 (x : ℤ) : Prop := -2 ^ 63 ≤ x ∧ x < 2 ^ 63

end Secp
