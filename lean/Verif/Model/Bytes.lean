import Verif.Spec.Bytes
import Verif.Model.Scalar
import Verif.Model.FeOps

/-!
# Reading and writing scalars and field elements, at the level of values

That the limb code computes these functions is part of C44 and C45.  Functions that take a pointer
to 32 bytes get the buffer from that pointer on and use its first 32 bytes.
-/

namespace Secp.Model

open Spec (beNat beBytes leNat leBytes)

/-- `secp256k1_scalar_set_b32`, scalar_4x64_impl.h:144-156: the value and `*overflow`. -/
def scSetB32 (b : List UInt8) : Fn × Bool :=
  let v := beNat (b.take 32)
  ((v : Fn), decide (v ≥ n))

/-- `secp256k1_scalar_get_b32`, scalar_4x64_impl.h:158-165 -/
def scGetB32 (a : Fn) : List UInt8 := beBytes 32 a.val

/-- `secp256k1_scalar_set_b32_seckey`, scalar_impl.h:34-40: the value and the return value. -/
def scSetB32Seckey (b : List UInt8) : Fn × Bool :=
  let r := scSetB32 b
  (r.1, !r.2 && !scIsZero r.1)

/-- `secp256k1_fe_set_b32_mod`, field_5x52_impl.h:228-263 -/
def feSetB32Mod (b : List UInt8) : Fp := (beNat (b.take 32) : Fp)

/-- `secp256k1_fe_set_b32_limit`, field_5x52_impl.h:265-268: the value and the return value. -/
def feSetB32Limit (b : List UInt8) : Fp × Bool :=
  let v := beNat (b.take 32)
  ((v : Fp), decide (v < p))

/-- `secp256k1_fe_get_b32`, field_5x52_impl.h:271-304 -/
def feGetB32 (a : Fp) : List UInt8 := beBytes 32 a.val

end Secp.Model
