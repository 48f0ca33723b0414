import Verif.Model.Field5x52
import Verif.Model.Field10x26
import Verif.Model.Modinv64
import Verif.Model.Modinv32
import Verif.Model.Objects

/-!
# The part of the field interface that touches bytes and bits (`/repo/src/field.h`)

`FeOps` is the arithmetic part.  The functions here look at the limbs of an element as they are, so what
they answer depends on whether the caller has normalized it; that is why the code above them is modelled a
second time over limbs, in `Verif/Model/Limb`.
-/

namespace Secp.Model

open Spec (beNat beBytes leNat leBytes)

/-- The functions of field.h that read or write the representation. -/
class FeMem (α : Type) where
  /-- `secp256k1_fe_is_zero`, field.h:157 -/
  isZero : α → Bool
  /-- `secp256k1_fe_is_odd`, field.h:164 -/
  isOdd : α → Bool
  /-- `secp256k1_fe_cmp_var`, field.h:180 -/
  cmpVar : α → α → Int
  /-- `secp256k1_fe_set_b32_mod`, field.h:188 -/
  setB32Mod : List UInt8 → α
  /-- `secp256k1_fe_set_b32_limit`, field.h:196: the element and the return value -/
  setB32Limit : List UInt8 → α × Bool
  /-- `secp256k1_fe_get_b32`, field.h:202 -/
  getB32 : α → List UInt8
  /-- `secp256k1_fe_to_storage`, field.h:300, and the copy of the storage object to memory -/
  toMem : α → List UInt8
  /-- The copy of 32 bytes of memory to a storage object, and `secp256k1_fe_from_storage`, field.h:308 -/
  fromMem : List UInt8 → α
  /-- `secp256k1_fe_is_square_var`, field.h:340 -/
  isSquareVar : α → Bool

/-- The byte at index `i`; a read behind the buffer, which no caller makes, gives 0. -/
def byteOf (b : List UInt8) (i : Nat) : Nat := (b.getD i 0).toNat

/-- The `k` byte little endian word number `i` of a buffer. -/
def leWord (k : Nat) (b : List UInt8) (i : Nat) : Nat := leNat ((b.drop (k * i)).take k)

/-- field_5x52_impl.h on a little endian machine: the storage object is an array of four 64-bit words
(field_5x52.h:45-47).  `secp256k1_fe_is_square_var` has no undefined behaviour (C59). -/
instance Fe5.instFeMem [Fe5.LimbInv] : FeMem Fe5 where
  isZero := Fe5.isZero
  isOdd := Fe5.isOdd
  cmpVar := Fe5.cmpVar
  setB32Mod b := Fe5.setB32Mod (byteOf b)
  setB32Limit b := (Fe5.setB32Mod (byteOf b), (Fe5.setB32Mod (byteOf b)).setB32LimitRet)
  getB32 a := a.getB32.map UInt8.ofNat
  toMem a :=
    let s := a.toStorage
    leBytes 8 s.n0 ++ leBytes 8 s.n1 ++ leBytes 8 s.n2 ++ leBytes 8 s.n3
  fromMem b := Fe5.fromStorage ⟨leWord 8 b 0, leWord 8 b 1, leWord 8 b 2, leWord 8 b 3⟩
  isSquareVar a := (Fe5.isSquareVar? a).getD false

/-- field_10x26_impl.h on a little endian machine: the storage object is an array of eight 32-bit words
(field_10x26.h:50-52).  `secp256k1_fe_is_square_var` has no undefined behaviour (C66). -/
instance Fe10.instFeMem [Fe10.LimbInv] : FeMem Fe10 where
  isZero := Fe10.isZero
  isOdd := Fe10.isOdd
  cmpVar := Fe10.cmpVar
  setB32Mod b := Fe10.setB32Mod (byteOf b)
  setB32Limit b := (Fe10.setB32Mod (byteOf b), (Fe10.setB32Mod (byteOf b)).setB32LimitRet)
  getB32 a := a.getB32.map UInt8.ofNat
  toMem a :=
    let s := a.toStorage
    leBytes 4 s.n0 ++ leBytes 4 s.n1 ++ leBytes 4 s.n2 ++ leBytes 4 s.n3 ++ leBytes 4 s.n4 ++
      leBytes 4 s.n5 ++ leBytes 4 s.n6 ++ leBytes 4 s.n7
  fromMem b := Fe10.fromStorage ⟨leWord 4 b 0, leWord 4 b 1, leWord 4 b 2, leWord 4 b 3, leWord 4 b 4,
    leWord 4 b 5, leWord 4 b 6, leWord 4 b 7⟩
  isSquareVar a := (Fe10.isSquareVar? a).getD false

end Secp.Model
