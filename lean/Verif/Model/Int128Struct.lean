import Verif.Model.Modinv64

/-!
# Model of the emulated 128-bit integers and of the emulated trailing-zero count

`/repo/src/int128_struct.h`, `/repo/src/int128_struct_impl.h` (the branch for compilers without any
128-bit support, lines 30-51) and the fallbacks of `/repo/src/util.h:341-361`.  This is the code that
runs on a 64-bit platform whose compiler has no `__int128`; the rest of the model uses the native
type of `/repo/src/int128_native_impl.h`.

A `uint64_t` is a natural number smaller than `2^64`, reduced explicitly by `u64`.  Signed arithmetic
is checked: an overflow makes the function return `none`.  The MSVC intrinsics (lines 7-29, 82-84) and
the `VERIFY_CHECK`s are not modelled.
-/

namespace Secp.Model

/-- `(uint32_t)x` -/
def u32 (x : Nat) : Nat := x % 2 ^ 32

/-- `secp256k1_uint128` and `secp256k1_int128`, int128_struct.h:7-12 -/
structure I128 where
  lo : Nat
  hi : Nat
deriving DecidableEq, Repr

/-- `secp256k1_umul128`, int128_struct_impl.h:32-40.  The result is `(return value, *hi)`. -/
def umul128 (a b : Nat) : Nat × Nat :=
  let ll := u64 (u32 a * u32 b)
  let lh := u64 (u32 a * (b >>> 32))
  let hl := u64 ((a >>> 32) * u32 b)
  let hh := u64 ((a >>> 32) * (b >>> 32))
  let mid34 := u64 (u64 ((ll >>> 32) + u32 lh) + u32 hl)
  let hi := u64 (u64 (u64 (hh + (lh >>> 32)) + (hl >>> 32)) + (mid34 >>> 32))
  (u64 (u64 (mid34 <<< 32) + u32 ll), hi)

/-- `secp256k1_mul128`, int128_struct_impl.h:42-51.  The result is `(return value, *hi)`. -/
def mul128 (a b : ℤ) : Option (ℤ × ℤ) :=
  let ll := u64 (u32 (toU64 a) * u32 (toU64 b))
  (i64? (u32 (toU64 a) * (b / 2 ^ 32))).bind fun lh =>
  (i64? ((a / 2 ^ 32) * u32 (toU64 b))).bind fun hl =>
  (i64? ((a / 2 ^ 32) * (b / 2 ^ 32))).bind fun hh =>
  let mid34 := u64 (u64 ((ll >>> 32) + u32 (toU64 lh)) + u32 (toU64 hl))
  (i64? (hh + lh / 2 ^ 32)).bind fun t =>
  (i64? (t + hl / 2 ^ 32)).bind fun t =>
  let hi := u64 (toU64 t + (mid34 >>> 32))
  some (toI64 (u64 (u64 (mid34 <<< 32) + u32 ll) : ℕ), toI64 (hi : ℕ))

namespace I128

/-- `secp256k1_u128_load`, int128_struct_impl.h:53-56 -/
def uload (hi lo : Nat) : I128 := ⟨lo, hi⟩

/-- `secp256k1_u128_mul`, int128_struct_impl.h:58-60 -/
def umul (a b : Nat) : I128 := let m := umul128 a b; ⟨m.1, m.2⟩

/-- `secp256k1_u128_accum_mul`, int128_struct_impl.h:62-67 -/
def uaccumMul (r : I128) (a b : Nat) : I128 :=
  let m := umul128 a b
  let lo := u64 (r.lo + m.1)
  ⟨lo, u64 (r.hi + u64 (m.2 + if lo < m.1 then 1 else 0))⟩

/-- `secp256k1_u128_accum_u64`, int128_struct_impl.h:69-72 -/
def uaccumU64 (r : I128) (a : Nat) : I128 :=
  let lo := u64 (r.lo + a)
  ⟨lo, u64 (r.hi + if lo < a then 1 else 0)⟩

/-- `secp256k1_u128_rshift`, int128_struct_impl.h:77-91 -/
def urshift (r : I128) (n : Nat) : I128 :=
  if n ≥ 64 then ⟨r.hi >>> (n - 64), 0⟩
  else if n > 0 then ⟨u64 (r.hi <<< (64 - n)) ||| r.lo >>> n, r.hi >>> n⟩
  else r

/-- `secp256k1_u128_to_u64`, int128_struct_impl.h:93-95, and `secp256k1_i128_to_u64`, 179-181 -/
def toU64 (a : I128) : Nat := a.lo
/-- `secp256k1_u128_hi_u64`, int128_struct_impl.h:97-99 -/
def hiU64 (a : I128) : Nat := a.hi
/-- `secp256k1_u128_from_u64`, int128_struct_impl.h:101-104 -/
def fromU64 (a : Nat) : I128 := ⟨a, 0⟩

/-- `secp256k1_u128_check_bits`, int128_struct_impl.h:106-110 -/
def ucheckBits (r : I128) (n : Nat) : Bool :=
  if n ≥ 64 then r.hi >>> (n - 64) == 0 else r.hi == 0 && r.lo >>> n == 0

/-- `secp256k1_i128_load`, int128_struct_impl.h:112-115 (`hi` is converted to `uint64_t`) -/
def iload (hi : ℤ) (lo : Nat) : I128 := ⟨lo, Model.toU64 hi⟩

/-- `secp256k1_i128_mul`, int128_struct_impl.h:117-121 -/
def imul (a b : ℤ) : Option I128 :=
  (mul128 a b).bind fun m => some ⟨Model.toU64 m.1, Model.toU64 m.2⟩

/-- `secp256k1_i128_accum_mul`, int128_struct_impl.h:123-140.  `hi` is a signed variable; the last
addition is unsigned. -/
def iaccumMul (r : I128) (a b : ℤ) : Option I128 :=
  (mul128 a b).bind fun m =>
  let lo := Model.toU64 m.1
  let rlo := u64 (r.lo + lo)
  (i64? (m.2 + if rlo < lo then 1 else 0)).bind fun hi =>
  some ⟨rlo, u64 (r.hi + Model.toU64 hi)⟩

/-- `secp256k1_i128_dissip_mul`, int128_struct_impl.h:142-158 -/
def idissipMul (r : I128) (a b : ℤ) : Option I128 :=
  (mul128 a b).bind fun m =>
  let lo := Model.toU64 m.1
  (i64? (m.2 + if r.lo < lo then 1 else 0)).bind fun hi =>
  some ⟨Model.toU64 ((r.lo : ℤ) - lo), Model.toU64 ((r.hi : ℤ) - Model.toU64 hi)⟩

/-- `secp256k1_i128_det`, int128_struct_impl.h:160-163 -/
def idet (a b c d : ℤ) : Option I128 := (imul a d).bind fun r => idissipMul r b c

/-- `secp256k1_i128_rshift`, int128_struct_impl.h:168-177 -/
def irshift (r : I128) (n : Nat) : I128 :=
  if n ≥ 64 then
    ⟨Model.toU64 (toI64 (r.hi : ℕ) / 2 ^ (n - 64)), Model.toU64 (toI64 (r.hi : ℕ) / 2 ^ 63)⟩
  else if n > 0 then
    ⟨u64 (r.hi <<< (64 - n)) ||| r.lo >>> n, Model.toU64 (toI64 (r.hi : ℕ) / 2 ^ n)⟩
  else r

/-- `secp256k1_i128_to_i64`, int128_struct_impl.h:183-187 -/
def itoI64 (a : I128) : ℤ := toI64 (a.toU64 : ℕ)

/-- `secp256k1_i128_from_i64`, int128_struct_impl.h:189-192 -/
def ifromI64 (a : ℤ) : I128 := ⟨Model.toU64 a, Model.toU64 (a / 2 ^ 63)⟩

/-- `secp256k1_i128_eq_var`, int128_struct_impl.h:194-196 -/
def ieqVar (a b : I128) : Bool := a.hi == b.hi && a.lo == b.lo

/-- `secp256k1_i128_check_pow2`, int128_struct_impl.h:198-203 -/
def icheckPow2 (r : I128) (n : Nat) (sign : ℤ) : Bool :=
  if n ≥ 64 then r.hi == u64 (Model.toU64 sign <<< (n - 64)) && r.lo == 0
  else r.hi == Model.toU64 (sign / 2) && r.lo == u64 (Model.toU64 sign <<< n)

end I128

/-- `secp256k1_i128_det`, int128_native_impl.h:59-64 (with the native type) -/
def i128Det (a b c d : ℤ) : Option ℤ :=
  (i128? (a * d)).bind fun ad => (i128? (b * c)).bind fun bc => i128? (ad - bc)

/-- The table of `secp256k1_ctz32_var_debruijn`, util.h:342-346 -/
def debruijn32 : List Nat := [
  0x00, 0x01, 0x02, 0x18, 0x03, 0x13, 0x06, 0x19, 0x16, 0x04, 0x14, 0x0A,
  0x10, 0x07, 0x0C, 0x1A, 0x1F, 0x17, 0x12, 0x05, 0x15, 0x09, 0x0F, 0x0B,
  0x1E, 0x11, 0x08, 0x0E, 0x1D, 0x0D, 0x1C, 0x1B]

/-- The table of `secp256k1_ctz64_var_debruijn`, util.h:354-359 -/
def debruijn64 : List Nat := [
  0, 1, 2, 53, 3, 7, 54, 27, 4, 38, 41, 8, 34, 55, 48, 28,
  62, 5, 39, 46, 44, 42, 22, 9, 24, 35, 59, 56, 49, 18, 29, 11,
  63, 52, 6, 26, 37, 40, 33, 47, 61, 45, 43, 21, 23, 58, 17, 10,
  51, 25, 36, 32, 60, 20, 57, 16, 50, 31, 19, 15, 30, 14, 13, 12]

/-- `secp256k1_ctz32_var_debruijn`, util.h:341-348.  `-x` is the unsigned negation; `none` is an
access outside the table. -/
def ctz32Debruijn (x : Nat) : Option Nat :=
  debruijn32[u32 ((x &&& u32 (2 ^ 32 - x)) * 0x04D7651F) >>> 27]?

/-- `secp256k1_ctz64_var_debruijn`, util.h:353-361 -/
def ctz64Debruijn (x : Nat) : Option Nat :=
  debruijn64[u64 ((x &&& u64 (2 ^ 64 - x)) * 0x022FDD63CC95386D) >>> 58]?

end Secp.Model
