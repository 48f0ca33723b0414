import Verif.Model.Field5x52

/-!
# Model of the limb implementation of scalars

`/repo/src/scalar_4x64.h`, `/repo/src/scalar_4x64_impl.h` (the C branches, not the assembly) and
the part of `/repo/src/scalar_impl.h` that works on limbs.

As in `Verif/Model/Field5x52.lean`, words are natural numbers, and every operation that can wrap is
followed by the reduction the machine does.  `int` variables that only ever hold 0 and 1 and are
combined by `|`, `&` and `~` are `Bool`s.  `volatile` copies of flags are not modelled.
-/

namespace Secp.Model

/-- `secp256k1_u128_hi_u64`, int128_native_impl.h:32-34 -/
def u128HiU64 (a : Nat) : Nat := u64 (a >>> 64)

/-- `~x` on `uint64_t` -/
def not64 (x : Nat) : Nat := 2 ^ 64 - 1 - x

/-- An `int` holding the result of a comparison -/
def bit (b : Bool) : Nat := if b then 1 else 0

/-- `secp256k1_scalar`, scalar_4x64.h:12-15 -/
@[ext]
structure Sc4 where
  d0 : Nat
  d1 : Nat
  d2 : Nat
  d3 : Nat
deriving DecidableEq, Repr

/-- `SECP256K1_N_0`, scalar_4x64_impl.h:16 -/
def scN0 : Nat := 0xBFD25E8CD0364141
/-- `SECP256K1_N_1`, scalar_4x64_impl.h:17 -/
def scN1 : Nat := 0xBAAEDCE6AF48A03B
/-- `SECP256K1_N_2`, scalar_4x64_impl.h:18 -/
def scN2 : Nat := 0xFFFFFFFFFFFFFFFE
/-- `SECP256K1_N_3`, scalar_4x64_impl.h:19 -/
def scN3 : Nat := 0xFFFFFFFFFFFFFFFF
/-- `SECP256K1_N_C_0`, scalar_4x64_impl.h:22 -/
def scNC0 : Nat := u64 (not64 scN0 + 1)
/-- `SECP256K1_N_C_1`, scalar_4x64_impl.h:23 -/
def scNC1 : Nat := not64 scN1
/-- `SECP256K1_N_C_2`, scalar_4x64_impl.h:24 -/
def scNC2 : Nat := 1
/-- `SECP256K1_N_H_0`, scalar_4x64_impl.h:27 -/
def scNH0 : Nat := 0xDFE92F46681B20A0
/-- `SECP256K1_N_H_1`, scalar_4x64_impl.h:28 -/
def scNH1 : Nat := 0x5D576E7357A4501D
/-- `SECP256K1_N_H_2`, scalar_4x64_impl.h:29 -/
def scNH2 : Nat := 0xFFFFFFFFFFFFFFFF
/-- `SECP256K1_N_H_3`, scalar_4x64_impl.h:30 -/
def scNH3 : Nat := 0x7FFFFFFFFFFFFFFF

/-- `secp256k1_read_be64`, util.h:416-425, at offset `o` of the bytes `b` -/
def readBe64 (b : Nat → Nat) (o : Nat) : Nat :=
  (b (o + 0) <<< 56) ||| (b (o + 1) <<< 48) ||| (b (o + 2) <<< 40) ||| (b (o + 3) <<< 32) |||
    (b (o + 4) <<< 24) ||| (b (o + 5) <<< 16) ||| (b (o + 6) <<< 8) ||| b (o + 7)

/-- `secp256k1_write_be64`, util.h:428-437: the eight bytes in memory order (conversion to
`unsigned char` keeps the low eight bits) -/
def writeBe64 (x : Nat) : List UInt8 :=
  [UInt8.ofNat (x >>> 56), UInt8.ofNat (x >>> 48), UInt8.ofNat (x >>> 40), UInt8.ofNat (x >>> 32),
    UInt8.ofNat (x >>> 24), UInt8.ofNat (x >>> 16), UInt8.ofNat (x >>> 8), UInt8.ofNat x]

namespace Sc4

/-- `secp256k1_scalar_set_int`, scalar_4x64_impl.h:32-39 (`v` is an `unsigned int`) -/
def setInt (v : Nat) : Sc4 := ⟨v, 0, 0, 0⟩

/-- `a->d[i]`; an index outside the array, which is undefined behaviour in C, never occurs below -/
def limb (a : Sc4) (i : Nat) : Nat :=
  if i = 0 then a.d0 else if i = 1 then a.d1 else if i = 2 then a.d2 else a.d3

/-- `secp256k1_scalar_get_bits_limb32`, scalar_4x64_impl.h:41-47 -/
def getBitsLimb32 (a : Sc4) (offset count : Nat) : Nat :=
  (a.limb (offset >>> 6) >>> (offset &&& 0x3F)) &&& (0xFFFFFFFF >>> (32 - count))

/-- `secp256k1_scalar_get_bits_var`, scalar_4x64_impl.h:49-60 -/
def getBitsVar (a : Sc4) (offset count : Nat) : Nat :=
  if (offset + count - 1) >>> 6 = offset >>> 6 then a.getBitsLimb32 offset count
  else
    ((a.limb (offset >>> 6) >>> (offset &&& 0x3F)) |||
      u64 (a.limb ((offset >>> 6) + 1) <<< (64 - (offset &&& 0x3F)))) &&&
      (0xFFFFFFFF >>> (32 - count))

/-- `secp256k1_scalar_check_overflow`, scalar_4x64_impl.h:62-72 -/
def checkOverflow (a : Sc4) : Bool :=
  let yes := false
  let no := false
  let no := no || decide (a.d3 < scN3)
  let no := no || decide (a.d2 < scN2)
  let yes := yes || (decide (a.d2 > scN2) && !no)
  let no := no || decide (a.d1 < scN1)
  let yes := yes || (decide (a.d1 > scN1) && !no)
  let yes := yes || (decide (a.d0 ≥ scN0) && !no)
  yes

/-- `secp256k1_scalar_reduce`, scalar_4x64_impl.h:74-92: the new value (the return value is
`overflow`) -/
def reduce (r : Sc4) (overflow : Nat) : Sc4 :=
  let t := r.d0
  let t := u128AccumU64 t (u64 (overflow * scNC0))
  let d0 := u128ToU64 t
  let t := u128Rshift t 64
  let t := u128AccumU64 t r.d1
  let t := u128AccumU64 t (u64 (overflow * scNC1))
  let d1 := u128ToU64 t
  let t := u128Rshift t 64
  let t := u128AccumU64 t r.d2
  let t := u128AccumU64 t (u64 (overflow * scNC2))
  let d2 := u128ToU64 t
  let t := u128Rshift t 64
  let t := u128AccumU64 t r.d3
  let d3 := u128ToU64 t
  ⟨d0, d1, d2, d3⟩

/-- The sum of `secp256k1_scalar_add`, scalar_4x64_impl.h:100-111: the limbs and the carry. -/
def addRaw (a b : Sc4) : Sc4 × Nat :=
  let t := a.d0
  let t := u128AccumU64 t b.d0
  let d0 := u128ToU64 t
  let t := u128Rshift t 64
  let t := u128AccumU64 t a.d1
  let t := u128AccumU64 t b.d1
  let d1 := u128ToU64 t
  let t := u128Rshift t 64
  let t := u128AccumU64 t a.d2
  let t := u128AccumU64 t b.d2
  let d2 := u128ToU64 t
  let t := u128Rshift t 64
  let t := u128AccumU64 t a.d3
  let t := u128AccumU64 t b.d3
  let d3 := u128ToU64 t
  let t := u128Rshift t 64
  (⟨d0, d1, d2, d3⟩, u128ToU64 t)

/-- `secp256k1_scalar_add`, scalar_4x64_impl.h:94-118: the sum and the return value. -/
def add (a b : Sc4) : Sc4 × Nat :=
  let s := addRaw a b
  let overflow := s.2 + bit s.1.checkOverflow
  (s.1.reduce overflow, overflow)

/-- `secp256k1_scalar_cadd_bit`, scalar_4x64_impl.h:120-142.  `flag` is 0 or 1. -/
def caddBit (r : Sc4) (bitn : Nat) (flag : Bool) : Sc4 :=
  let bitn := bitn + (((bit flag + 2 ^ 32 - 1) % 2 ^ 32) &&& 0x100)
  let t := r.d0
  let t := u128AccumU64 t (u64 (bit (decide (bitn >>> 6 = 0)) <<< (bitn &&& 0x3F)))
  let d0 := u128ToU64 t
  let t := u128Rshift t 64
  let t := u128AccumU64 t r.d1
  let t := u128AccumU64 t (u64 (bit (decide (bitn >>> 6 = 1)) <<< (bitn &&& 0x3F)))
  let d1 := u128ToU64 t
  let t := u128Rshift t 64
  let t := u128AccumU64 t r.d2
  let t := u128AccumU64 t (u64 (bit (decide (bitn >>> 6 = 2)) <<< (bitn &&& 0x3F)))
  let d2 := u128ToU64 t
  let t := u128Rshift t 64
  let t := u128AccumU64 t r.d3
  let t := u128AccumU64 t (u64 (bit (decide (bitn >>> 6 = 3)) <<< (bitn &&& 0x3F)))
  let d3 := u128ToU64 t
  ⟨d0, d1, d2, d3⟩

/-- `secp256k1_scalar_set_b32`, scalar_4x64_impl.h:144-156: the scalar and `*overflow`. -/
def setB32 (b : Nat → Nat) : Sc4 × Bool :=
  let r : Sc4 := ⟨readBe64 b 24, readBe64 b 16, readBe64 b 8, readBe64 b 0⟩
  let over := r.checkOverflow
  (r.reduce (bit over), over)

/-- `secp256k1_scalar_get_b32`, scalar_4x64_impl.h:158-165: the 32 bytes written. -/
def getB32 (a : Sc4) : List UInt8 :=
  writeBe64 a.d3 ++ writeBe64 a.d2 ++ writeBe64 a.d1 ++ writeBe64 a.d0

/-- `secp256k1_scalar_is_zero`, scalar_4x64_impl.h:167-171 -/
def isZero (a : Sc4) : Bool := decide (a.d0 ||| a.d1 ||| a.d2 ||| a.d3 = 0)

/-- `secp256k1_scalar_set_b32_seckey`, scalar_impl.h:34-40: the scalar and the return value. -/
def setB32Seckey (b : Nat → Nat) : Sc4 × Bool :=
  let r := setB32 b
  (r.1, !r.2 && !r.1.isZero)

/-- `secp256k1_scalar_negate`, scalar_4x64_impl.h:173-192 -/
def negate (a : Sc4) : Sc4 :=
  let nonzero := u64 (0xFFFFFFFFFFFFFFFF * bit (!a.isZero))
  let t := not64 a.d0
  let t := u128AccumU64 t (u64 (scN0 + 1))
  let d0 := u128ToU64 t &&& nonzero
  let t := u128Rshift t 64
  let t := u128AccumU64 t (not64 a.d1)
  let t := u128AccumU64 t scN1
  let d1 := u128ToU64 t &&& nonzero
  let t := u128Rshift t 64
  let t := u128AccumU64 t (not64 a.d2)
  let t := u128AccumU64 t scN2
  let d2 := u128ToU64 t &&& nonzero
  let t := u128Rshift t 64
  let t := u128AccumU64 t (not64 a.d3)
  let t := u128AccumU64 t scN3
  let d3 := u128ToU64 t &&& nonzero
  ⟨d0, d1, d2, d3⟩

/-- `secp256k1_scalar_half`, scalar_4x64_impl.h:194-233 -/
def half (a : Sc4) : Sc4 :=
  let mask := (2 ^ 64 - (a.d0 &&& 1)) % 2 ^ 64
  let t := (a.d0 >>> 1) ||| u64 (a.d1 <<< 63)
  let t := u128AccumU64 t (u64 (scNH0 + 1) &&& mask)
  let d0 := u128ToU64 t
  let t := u128Rshift t 64
  let t := u128AccumU64 t ((a.d1 >>> 1) ||| u64 (a.d2 <<< 63))
  let t := u128AccumU64 t (scNH1 &&& mask)
  let d1 := u128ToU64 t
  let t := u128Rshift t 64
  let t := u128AccumU64 t ((a.d2 >>> 1) ||| u64 (a.d3 <<< 63))
  let t := u128AccumU64 t (scNH2 &&& mask)
  let d2 := u128ToU64 t
  let t := u128Rshift t 64
  let d3 := u64 (u64 (u128ToU64 t + (a.d3 >>> 1)) + (scNH3 &&& mask))
  ⟨d0, d1, d2, d3⟩

/-- `secp256k1_scalar_is_one`, scalar_4x64_impl.h:235-239 -/
def isOne (a : Sc4) : Bool := decide ((a.d0 ^^^ 1) ||| a.d1 ||| a.d2 ||| a.d3 = 0)

/-- `secp256k1_scalar_is_high`, scalar_4x64_impl.h:241-253 -/
def isHigh (a : Sc4) : Bool :=
  let yes := false
  let no := false
  let no := no || decide (a.d3 < scNH3)
  let yes := yes || (decide (a.d3 > scNH3) && !no)
  let no := no || (decide (a.d2 < scNH2) && !yes)
  let no := no || (decide (a.d1 < scNH1) && !yes)
  let yes := yes || (decide (a.d1 > scNH1) && !no)
  let yes := yes || (decide (a.d0 > scNH0) && !no)
  yes

/-- `secp256k1_scalar_cond_negate`, scalar_4x64_impl.h:255-279: the scalar and the return value. -/
def condNegate (r : Sc4) (flag : Bool) : Sc4 × Int :=
  let mask := (2 ^ 64 - bit flag) % 2 ^ 64
  let nonzero := (bit r.isZero + 2 ^ 64 - 1) % 2 ^ 64
  let t := r.d0 ^^^ mask
  let t := u128AccumU64 t (u64 (scN0 + 1) &&& mask)
  let d0 := u128ToU64 t &&& nonzero
  let t := u128Rshift t 64
  let t := u128AccumU64 t (r.d1 ^^^ mask)
  let t := u128AccumU64 t (scN1 &&& mask)
  let d1 := u128ToU64 t &&& nonzero
  let t := u128Rshift t 64
  let t := u128AccumU64 t (r.d2 ^^^ mask)
  let t := u128AccumU64 t (scN2 &&& mask)
  let d2 := u128ToU64 t &&& nonzero
  let t := u128Rshift t 64
  let t := u128AccumU64 t (r.d3 ^^^ mask)
  let t := u128AccumU64 t (scN3 &&& mask)
  let d3 := u128ToU64 t &&& nonzero
  (⟨d0, d1, d2, d3⟩, if mask = 0 then 1 else -1)

end Sc4

/-- The accumulator `(c0,c1,c2)` of the multiplication macros, scalar_4x64_impl.h:281-345. -/
structure Acc where
  c0 : Nat
  c1 : Nat
  c2 : Nat
deriving DecidableEq, Repr

namespace Acc

/-- `muladd`, scalar_4x64_impl.h:284-297.  `w` is the width of `c2`: 64 in
`secp256k1_scalar_reduce_512` and 32 in `secp256k1_scalar_mul_512`. -/
def muladd (w : Nat) (c : Acc) (a b : Nat) : Acc :=
  let t := u128Mul a b
  let th := u128HiU64 t
  let tl := u128ToU64 t
  let c0 := u64 (c.c0 + tl)
  let th := u64 (th + bit (decide (c0 < tl)))
  let c1 := u64 (c.c1 + th)
  let c2 := (c.c2 + bit (decide (c1 < th))) % 2 ^ w
  ⟨c0, c1, c2⟩

/-- `muladd_fast`, scalar_4x64_impl.h:300-312 -/
def muladdFast (c : Acc) (a b : Nat) : Acc :=
  let t := u128Mul a b
  let th := u128HiU64 t
  let tl := u128ToU64 t
  let c0 := u64 (c.c0 + tl)
  let th := u64 (th + bit (decide (c0 < tl)))
  let c1 := u64 (c.c1 + th)
  ⟨c0, c1, c.c2⟩

/-- `sumadd`, scalar_4x64_impl.h:315-321 -/
def sumadd (w : Nat) (c : Acc) (a : Nat) : Acc :=
  let c0 := u64 (c.c0 + a)
  let over := bit (decide (c0 < a))
  let c1 := u64 (c.c1 + over)
  let c2 := (c.c2 + bit (decide (c1 < over))) % 2 ^ w
  ⟨c0, c1, c2⟩

/-- `sumadd_fast`, scalar_4x64_impl.h:324-329 -/
def sumaddFast (c : Acc) (a : Nat) : Acc :=
  let c0 := u64 (c.c0 + a)
  let c1 := u64 (c.c1 + bit (decide (c0 < a)))
  ⟨c0, c1, c.c2⟩

/-- `extract`, scalar_4x64_impl.h:332-337: the accumulator afterwards; the extracted word is `c0`. -/
def extract (c : Acc) : Acc := ⟨c.c1, c.c2, 0⟩

/-- `extract_fast`, scalar_4x64_impl.h:340-345: the accumulator afterwards; the extracted word is
`c0`. -/
def extractFast (c : Acc) : Acc := ⟨c.c1, 0, c.c2⟩

end Acc

/-- A 512-bit number, the array `l[8]` of scalar_4x64_impl.h:856 -/
structure U512 where
  l0 : Nat
  l1 : Nat
  l2 : Nat
  l3 : Nat
  l4 : Nat
  l5 : Nat
  l6 : Nat
  l7 : Nat
deriving DecidableEq, Repr

/-- The seven words `m0..m6` of scalar_4x64_impl.h:605-606 -/
structure Red1 where
  m0 : Nat
  m1 : Nat
  m2 : Nat
  m3 : Nat
  m4 : Nat
  m5 : Nat
  m6 : Nat

/-- The five words `p0..p4` of scalar_4x64_impl.h:607-608 -/
structure Red2 where
  p0 : Nat
  p1 : Nat
  p2 : Nat
  p3 : Nat
  p4 : Nat

namespace Sc4
open Acc

/-- `secp256k1_scalar_reduce_512`, scalar_4x64_impl.h:610-635: 512 bits into 385. -/
def reduce512a (l : U512) : Red1 :=
  let n0 := l.l4
  let n1 := l.l5
  let n2 := l.l6
  let n3 := l.l7
  let c : Acc := ⟨l.l0, 0, 0⟩
  let c := c.muladdFast n0 scNC0
  let m0 := c.c0
  let c := c.extractFast
  let c := c.sumaddFast l.l1
  let c := c.muladd 64 n1 scNC0
  let c := c.muladd 64 n0 scNC1
  let m1 := c.c0
  let c := c.extract
  let c := c.sumadd 64 l.l2
  let c := c.muladd 64 n2 scNC0
  let c := c.muladd 64 n1 scNC1
  let c := c.sumadd 64 n0
  let m2 := c.c0
  let c := c.extract
  let c := c.sumadd 64 l.l3
  let c := c.muladd 64 n3 scNC0
  let c := c.muladd 64 n2 scNC1
  let c := c.sumadd 64 n1
  let m3 := c.c0
  let c := c.extract
  let c := c.muladd 64 n3 scNC1
  let c := c.sumadd 64 n2
  let m4 := c.c0
  let c := c.extract
  let c := c.sumaddFast n3
  let m5 := c.c0
  let c := c.extractFast
  let m6 := c.c0 % 2 ^ 32
  ⟨m0, m1, m2, m3, m4, m5, m6⟩

/-- `secp256k1_scalar_reduce_512`, scalar_4x64_impl.h:637-656: 385 bits into 258. -/
def reduce512b (m : Red1) : Red2 :=
  let c : Acc := ⟨m.m0, 0, 0⟩
  let c := c.muladdFast m.m4 scNC0
  let p0 := c.c0
  let c := c.extractFast
  let c := c.sumaddFast m.m1
  let c := c.muladd 64 m.m5 scNC0
  let c := c.muladd 64 m.m4 scNC1
  let p1 := c.c0
  let c := c.extract
  let c := c.sumadd 64 m.m2
  let c := c.muladd 64 m.m6 scNC0
  let c := c.muladd 64 m.m5 scNC1
  let c := c.sumadd 64 m.m4
  let p2 := c.c0
  let c := c.extract
  let c := c.sumaddFast m.m3
  let c := c.muladdFast m.m6 scNC1
  let c := c.sumaddFast m.m5
  let p3 := c.c0
  let c := c.extractFast
  let p4 := u64 (c.c0 + m.m6) % 2 ^ 32
  ⟨p0, p1, p2, p3, p4⟩

/-- `secp256k1_scalar_reduce_512`, scalar_4x64_impl.h:658-671: 258 bits into 256, and the carry. -/
def reduce512c (p : Red2) : Sc4 × Nat :=
  let c := p.p0
  let c := u128AccumMul c scNC0 p.p4
  let d0 := u128ToU64 c
  let c := u128Rshift c 64
  let c := u128AccumU64 c p.p1
  let c := u128AccumMul c scNC1 p.p4
  let d1 := u128ToU64 c
  let c := u128Rshift c 64
  let c := u128AccumU64 c p.p2
  let c := u128AccumU64 c p.p4
  let d2 := u128ToU64 c
  let c := u128Rshift c 64
  let c := u128AccumU64 c p.p3
  let d3 := u128ToU64 c
  (⟨d0, d1, d2, d3⟩, u128HiU64 c)

/-- `secp256k1_scalar_reduce_512`, scalar_4x64_impl.h:347-676 -/
def reduce512 (l : U512) : Sc4 :=
  let r := reduce512c (reduce512b (reduce512a l))
  r.1.reduce (u64 (r.2 + bit r.1.checkOverflow) % 2 ^ 32)

/-- `secp256k1_scalar_mul_512`, scalar_4x64_impl.h:678-846 -/
def mul512 (a b : Sc4) : U512 :=
  let c : Acc := ⟨0, 0, 0⟩
  let c := c.muladdFast a.d0 b.d0
  let l0 := c.c0
  let c := c.extractFast
  let c := c.muladd 32 a.d0 b.d1
  let c := c.muladd 32 a.d1 b.d0
  let l1 := c.c0
  let c := c.extract
  let c := c.muladd 32 a.d0 b.d2
  let c := c.muladd 32 a.d1 b.d1
  let c := c.muladd 32 a.d2 b.d0
  let l2 := c.c0
  let c := c.extract
  let c := c.muladd 32 a.d0 b.d3
  let c := c.muladd 32 a.d1 b.d2
  let c := c.muladd 32 a.d2 b.d1
  let c := c.muladd 32 a.d3 b.d0
  let l3 := c.c0
  let c := c.extract
  let c := c.muladd 32 a.d1 b.d3
  let c := c.muladd 32 a.d2 b.d2
  let c := c.muladd 32 a.d3 b.d1
  let l4 := c.c0
  let c := c.extract
  let c := c.muladd 32 a.d2 b.d3
  let c := c.muladd 32 a.d3 b.d2
  let l5 := c.c0
  let c := c.extract
  let c := c.muladdFast a.d3 b.d3
  let l6 := c.c0
  let c := c.extractFast
  let l7 := c.c0
  ⟨l0, l1, l2, l3, l4, l5, l6, l7⟩

/-- `secp256k1_scalar_mul`, scalar_4x64_impl.h:855-864 -/
def mul (a b : Sc4) : Sc4 := reduce512 (mul512 a b)

/-- `secp256k1_scalar_split_128`, scalar_4x64_impl.h:866-880 -/
def split128 (k : Sc4) : Sc4 × Sc4 := (⟨k.d0, k.d1, 0, 0⟩, ⟨k.d2, k.d3, 0, 0⟩)

/-- `secp256k1_scalar_eq`, scalar_4x64_impl.h:882-887 -/
def eq (a b : Sc4) : Bool :=
  decide ((a.d0 ^^^ b.d0) ||| (a.d1 ^^^ b.d1) ||| (a.d2 ^^^ b.d2) ||| (a.d3 ^^^ b.d3) = 0)

end Sc4

/-- `l[i]`; an index outside the array, which is undefined behaviour in C, does not occur for the
shifts the theorems speak of -/
def U512.get (l : U512) (i : Nat) : Nat :=
  if i = 0 then l.l0 else if i = 1 then l.l1 else if i = 2 then l.l2 else if i = 3 then l.l3
  else if i = 4 then l.l4 else if i = 5 then l.l5 else if i = 6 then l.l6 else l.l7

namespace Sc4

/-- `secp256k1_scalar_mul_shift_var`, scalar_4x64_impl.h:899-906, on the product `l`. -/
def shift512 (l : U512) (shift : Nat) : Sc4 :=
  let shiftlimbs := shift >>> 6
  let shiftlow := shift &&& 0x3F
  let shifthigh := 64 - shiftlow
  let d0 := if shift < 512 then
      (l.get (0 + shiftlimbs) >>> shiftlow) |||
        (if shift < 448 ∧ shiftlow ≠ 0 then u64 (l.get (1 + shiftlimbs) <<< shifthigh) else 0)
    else 0
  let d1 := if shift < 448 then
      (l.get (1 + shiftlimbs) >>> shiftlow) |||
        (if shift < 384 ∧ shiftlow ≠ 0 then u64 (l.get (2 + shiftlimbs) <<< shifthigh) else 0)
    else 0
  let d2 := if shift < 384 then
      (l.get (2 + shiftlimbs) >>> shiftlow) |||
        (if shift < 320 ∧ shiftlow ≠ 0 then u64 (l.get (3 + shiftlimbs) <<< shifthigh) else 0)
    else 0
  let d3 := if shift < 320 then l.get (3 + shiftlimbs) >>> shiftlow else 0
  let r : Sc4 := ⟨d0, d1, d2, d3⟩
  r.caddBit 0 (decide ((l.get ((shift - 1) >>> 6) >>> ((shift - 1) &&& 0x3f)) &&& 1 = 1))

/-- `secp256k1_scalar_mul_shift_var`, scalar_4x64_impl.h:889-909 -/
def mulShiftVar (a b : Sc4) (shift : Nat) : Sc4 := shift512 (mul512 a b) shift

/-- `secp256k1_scalar_cmov`, scalar_4x64_impl.h:911-925 -/
def cmov (r a : Sc4) (flag : Bool) : Sc4 :=
  let mask0 := u64 (bit flag + (2 ^ 64 - 1))
  let mask1 := not64 mask0
  ⟨(r.d0 &&& mask0) ||| (a.d0 &&& mask1), (r.d1 &&& mask0) ||| (a.d1 &&& mask1),
    (r.d2 &&& mask0) ||| (a.d2 &&& mask1), (r.d3 &&& mask0) ||| (a.d3 &&& mask1)⟩

/-- `secp256k1_scalar_is_even`, scalar_4x64_impl.h:994-998 -/
def isEven (a : Sc4) : Bool := decide (a.d0 &&& 1 = 0)

/-- A constant given as an integer (`SECP256K1_SCALAR_CONST`, scalar_4x64.h:17) -/
def const (v : Nat) : Sc4 :=
  ⟨v % 2 ^ 64, v / 2 ^ 64 % 2 ^ 64, v / 2 ^ 128 % 2 ^ 64, v / 2 ^ 192 % 2 ^ 64⟩

/-- `secp256k1_scalar_split_lambda`, scalar_impl.h:142-180: the pair `(r1, r2)`. -/
def splitLambda (k : Sc4) : Sc4 × Sc4 :=
  let c1 := mulShiftVar k (const splitG1) 384
  let c2 := mulShiftVar k (const splitG2) 384
  let c1 := mul c1 (const minusB1)
  let c2 := mul c2 (const minusB2)
  let r2 := (add c1 c2).1
  let r1 := mul r2 (const constLambda)
  let r1 := negate r1
  let r1 := (add r1 k).1
  (r1, r2)

end Sc4
end Secp.Model
