import Verif.Model.EcmultGen
import Verif.Model.GroupX
import Verif.Model.Out

/-!
# Opaque objects and small memory helpers

An object the caller owns (`secp256k1_pubkey`, `secp256k1_ecdsa_signature`, ...) is the list of its
bytes.  A function that reads an object reads the bytes of its `data` array; a buffer is the memory
from the pointer on.
-/

namespace Secp.Model

open Spec (beNat beBytes leNat leBytes)
open FeOps

/-- `memset(p, 0, k)` on an object of size `k`. -/
def zeros (k : Nat) : List UInt8 := List.replicate k 0

/-- `memcpy(buf + off, b, len)`: the new contents of `buf`. -/
def put (buf : List UInt8) (off : Nat) (b : List UInt8) : List UInt8 :=
  buf.take off ++ b ++ buf.drop (off + b.length)

/-- A C truth value as an `int`. -/
def cInt (b : Bool) : Int := if b then 1 else 0

/-- `secp256k1_memczero`, util.h:208-220, over a whole object -/
def memczero (b : List UInt8) (flag : Bool) : List UInt8 := if flag then zeros b.length else b

/-- `secp256k1_memcmp_var`, util.h:255-266, on `k` bytes -/
def memcmpVar (a b : List UInt8) : Nat → Int
  | 0 => 0
  | k + 1 =>
    let diff : Int := (a.headD 0).toNat - (b.headD 0).toNat
    if diff ≠ 0 then diff else memcmpVar a.tail b.tail k

/-- `secp256k1_is_zero_array`, util.h:270-282, on a whole array -/
def isZeroArray (s : List UInt8) : Bool := s.foldl (fun acc x => acc ||| x) 0 == 0

/-- `secp256k1_fe_cmp_var`, field_5x52_impl.h:215-226 (of normalised elements) -/
def feCmpVar (a b : Fp) : Int := if a.val > b.val then 1 else if a.val < b.val then -1 else 0

/-- `secp256k1_ge_to_bytes`, group_impl.h:975-985, with `secp256k1_ge_to_storage`,
group_impl.h:877-888, and `secp256k1_fe_to_storage`, field_5x52_impl.h:428-433: two numbers of four
64-bit little endian words. -/
def geToBytes (a : Ge Fp) : List UInt8 :=
  leBytes 32 (FeOps.normalize a.x).val ++ leBytes 32 (FeOps.normalize a.y).val

/-- `secp256k1_ge_from_bytes`, group_impl.h:987-993 -/
def geFromBytes (b : List UInt8) : Ge Fp :=
  geFromStorage (leNat (b.take 32), leNat ((b.drop 32).take 32))

/-- `secp256k1_ge_to_bytes_ext`, group_impl.h:995-1001 -/
def geToBytesExt (a : Ge Fp) : List UInt8 := if a.infinity then zeros 64 else geToBytes a

/-- `secp256k1_ge_from_bytes_ext`, group_impl.h:1003-1010 -/
def geFromBytesExt (b : List UInt8) : Ge Fp :=
  if memcmpVar b (zeros 64) 64 = 0 then geInfinity else geFromBytes b

/-- `secp256k1_pubkey_load`, secp256k1.c:240-244: the point and the return value.  A return value 0
comes with one call of the illegal callback.  `secp256k1_fe_is_zero` looks at the limbs that
`secp256k1_fe_from_storage` filled in, so it tests the stored number without reduction. -/
def pubkeyLoad (pubkey : List UInt8) : Ge Fp × Bool :=
  (geFromBytes pubkey, leNat (pubkey.take 32) != 0)

/-- `secp256k1_pubkey_save`, secp256k1.c:246-248 -/
def pubkeySave (ge : Ge Fp) : List UInt8 := geToBytes ge

/-- `secp256k1_ecdsa_signature_load`, secp256k1.c:345-357 (`sizeof(secp256k1_scalar) == 32`: the four
little endian words).  Values of `n` and more do not occur in objects made by the library. -/
def signatureLoad (sig : List UInt8) : Fn × Fn :=
  ((leNat (sig.take 32) : Fn), (leNat ((sig.drop 32).take 32) : Fn))

/-- `secp256k1_ecdsa_signature_save`, secp256k1.c:359-367 -/
def signatureSave (r s : Fn) : List UInt8 := leBytes 32 r.val ++ leBytes 32 s.val

/-- A callback: function pointer and data pointer, util.h:87-90.  0 stands for the default function
or a NULL data pointer. -/
structure Callback where
  fn : Nat
  data : Nat
  deriving DecidableEq

/-- `struct secp256k1_context_struct`, secp256k1.c:61-66 -/
structure Ctx where
  gen : GenCtx
  illegalCallback : Callback
  errorCallback : Callback
  declassify : Bool

end Secp.Model
