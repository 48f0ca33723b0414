import Verif.Model.Scalar4x64
import Verif.Model.Int128Struct

/-!
# Model of the 32-bit limb implementation of scalars

`/repo/src/scalar_8x32.h`, `/repo/src/scalar_8x32_impl.h` and the part of `/repo/src/scalar_impl.h`
that works on limbs.  The conversions to and from `signed30` and the inverses are in
`Verif/Model/Modinv32.lean`.

As in `Verif/Model/Scalar4x64.lean`, words are natural numbers, and every operation that can wrap is
followed by the reduction the machine does.  `int` variables that only ever hold 0 and 1 and are
combined by `|`, `&` and `~` are `Bool`s.  `volatile` copies of flags are not modelled.
-/

namespace Secp.Model

/-- `~x` on `uint32_t` -/
def not32 (x : Nat) : Nat := 2 ^ 32 - 1 - x

/-- `secp256k1_scalar`, scalar_8x32.h:13-15 -/
@[ext]
structure Sc8 where
  d0 : Nat
  d1 : Nat
  d2 : Nat
  d3 : Nat
  d4 : Nat
  d5 : Nat
  d6 : Nat
  d7 : Nat
deriving DecidableEq, Repr

/-- `SECP256K1_N_0`, scalar_8x32_impl.h:15 -/
def s8N0 : Nat := 0xD0364141
/-- `SECP256K1_N_1`, scalar_8x32_impl.h:16 -/
def s8N1 : Nat := 0xBFD25E8C
/-- `SECP256K1_N_2`, scalar_8x32_impl.h:17 -/
def s8N2 : Nat := 0xAF48A03B
/-- `SECP256K1_N_3`, scalar_8x32_impl.h:18 -/
def s8N3 : Nat := 0xBAAEDCE6
/-- `SECP256K1_N_4`, scalar_8x32_impl.h:19 -/
def s8N4 : Nat := 0xFFFFFFFE
/-- `SECP256K1_N_5`, scalar_8x32_impl.h:20 -/
def s8N5 : Nat := 0xFFFFFFFF
/-- `SECP256K1_N_6`, scalar_8x32_impl.h:21 -/
def s8N6 : Nat := 0xFFFFFFFF
/-- `SECP256K1_N_7`, scalar_8x32_impl.h:22 -/
def s8N7 : Nat := 0xFFFFFFFF
/-- `SECP256K1_N_C_0`, scalar_8x32_impl.h:25 -/
def s8NC0 : Nat := u32 (not32 s8N0 + 1)
/-- `SECP256K1_N_C_1`, scalar_8x32_impl.h:26 -/
def s8NC1 : Nat := not32 s8N1
/-- `SECP256K1_N_C_2`, scalar_8x32_impl.h:27 -/
def s8NC2 : Nat := not32 s8N2
/-- `SECP256K1_N_C_3`, scalar_8x32_impl.h:28 -/
def s8NC3 : Nat := not32 s8N3
/-- `SECP256K1_N_C_4`, scalar_8x32_impl.h:29 -/
def s8NC4 : Nat := 1
/-- `SECP256K1_N_H_0`, scalar_8x32_impl.h:32 -/
def s8NH0 : Nat := 0x681B20A0
/-- `SECP256K1_N_H_1`, scalar_8x32_impl.h:33 -/
def s8NH1 : Nat := 0xDFE92F46
/-- `SECP256K1_N_H_2`, scalar_8x32_impl.h:34 -/
def s8NH2 : Nat := 0x57A4501D
/-- `SECP256K1_N_H_3`, scalar_8x32_impl.h:35 -/
def s8NH3 : Nat := 0x5D576E73
/-- `SECP256K1_N_H_4`, scalar_8x32_impl.h:36 -/
def s8NH4 : Nat := 0xFFFFFFFF
/-- `SECP256K1_N_H_5`, scalar_8x32_impl.h:37 -/
def s8NH5 : Nat := 0xFFFFFFFF
/-- `SECP256K1_N_H_6`, scalar_8x32_impl.h:38 -/
def s8NH6 : Nat := 0xFFFFFFFF
/-- `SECP256K1_N_H_7`, scalar_8x32_impl.h:39 -/
def s8NH7 : Nat := 0x7FFFFFFF

/-- `secp256k1_read_be32`, util.h:400-405, at offset `o` of the bytes `b` -/
def readBe32 (b : Nat → Nat) (o : Nat) : Nat :=
  (b (o + 0) <<< 24) ||| (b (o + 1) <<< 16) ||| (b (o + 2) <<< 8) ||| b (o + 3)

/-- `secp256k1_write_be32`, util.h:408-413: the four bytes in memory order (conversion to
`unsigned char` keeps the low eight bits) -/
def writeBe32 (x : Nat) : List UInt8 :=
  [UInt8.ofNat (x >>> 24), UInt8.ofNat (x >>> 16), UInt8.ofNat (x >>> 8), UInt8.ofNat x]

namespace Sc8

/-- `secp256k1_scalar_set_int`, scalar_8x32_impl.h:41-52 (`v` is an `unsigned int`) -/
def setInt (v : Nat) : Sc8 := ⟨v, 0, 0, 0, 0, 0, 0, 0⟩

/-- `a->d[i]`; an index outside the array, which is undefined behaviour in C, never occurs below -/
def limb (a : Sc8) (i : Nat) : Nat :=
  if i = 0 then a.d0 else if i = 1 then a.d1 else if i = 2 then a.d2 else if i = 3 then a.d3
  else if i = 4 then a.d4 else if i = 5 then a.d5 else if i = 6 then a.d6 else a.d7

/-- `secp256k1_scalar_get_bits_limb32`, scalar_8x32_impl.h:54-60 -/
def getBitsLimb32 (a : Sc8) (offset count : Nat) : Nat :=
  (a.limb (offset >>> 5) >>> (offset &&& 0x1F)) &&& (0xFFFFFFFF >>> (32 - count))

/-- `secp256k1_scalar_get_bits_var`, scalar_8x32_impl.h:62-73 -/
def getBitsVar (a : Sc8) (offset count : Nat) : Nat :=
  if (offset + count - 1) >>> 5 = offset >>> 5 then a.getBitsLimb32 offset count
  else
    ((a.limb (offset >>> 5) >>> (offset &&& 0x1F)) |||
      u32 (a.limb ((offset >>> 5) + 1) <<< (32 - (offset &&& 0x1F)))) &&&
      (0xFFFFFFFF >>> (32 - count))

/-- `secp256k1_scalar_check_overflow`, scalar_8x32_impl.h:75-91 -/
def checkOverflow (a : Sc8) : Bool :=
  let yes := false
  let no := false
  let no := no || decide (a.d7 < s8N7)
  let no := no || decide (a.d6 < s8N6)
  let no := no || decide (a.d5 < s8N5)
  let no := no || decide (a.d4 < s8N4)
  let yes := yes || (decide (a.d4 > s8N4) && !no)
  let no := no || (decide (a.d3 < s8N3) && !yes)
  let yes := yes || (decide (a.d3 > s8N3) && !no)
  let no := no || (decide (a.d2 < s8N2) && !yes)
  let yes := yes || (decide (a.d2 > s8N2) && !no)
  let no := no || (decide (a.d1 < s8N1) && !yes)
  let yes := yes || (decide (a.d1 > s8N1) && !no)
  let yes := yes || (decide (a.d0 ≥ s8N0) && !no)
  yes

/-- The carry chain that the functions below share, with the `uint64_t` variable `t`:
`t = x0; d[0] = t & mask; t >>= 32; t += x1; d[1] = t & mask; t >>= 32; …; d[7] = t & mask; t >>= 32`.
The limbs and the last `t`.  Where the code adds two numbers to `t` one after the other, `x` is their
sum, which is the same modulo `2^64`. -/
def chain (mask x0 x1 x2 x3 x4 x5 x6 x7 : Nat) : Sc8 × Nat :=
  let t := u64 x0
  let d0 := t &&& mask
  let t := t >>> 32
  let t := u64 (t + x1)
  let d1 := t &&& mask
  let t := t >>> 32
  let t := u64 (t + x2)
  let d2 := t &&& mask
  let t := t >>> 32
  let t := u64 (t + x3)
  let d3 := t &&& mask
  let t := t >>> 32
  let t := u64 (t + x4)
  let d4 := t &&& mask
  let t := t >>> 32
  let t := u64 (t + x5)
  let d5 := t &&& mask
  let t := t >>> 32
  let t := u64 (t + x6)
  let d6 := t &&& mask
  let t := t >>> 32
  let t := u64 (t + x7)
  let d7 := t &&& mask
  let t := t >>> 32
  (⟨d0, d1, d2, d3, d4, d5, d6, d7⟩, t)

/-- `secp256k1_scalar_reduce`, scalar_8x32_impl.h:93-116: the new value (the return value is
`overflow`) -/
def reduce (r : Sc8) (overflow : Nat) : Sc8 :=
  (chain 0xFFFFFFFF (r.d0 + u32 (overflow * s8NC0)) (r.d1 + u32 (overflow * s8NC1))
    (r.d2 + u32 (overflow * s8NC2)) (r.d3 + u32 (overflow * s8NC3))
    (r.d4 + u32 (overflow * s8NC4)) r.d5 r.d6 r.d7).1

/-- The sum of `secp256k1_scalar_add`, scalar_8x32_impl.h:120-138: the limbs and the carry. -/
def addRaw (a b : Sc8) : Sc8 × Nat :=
  chain 0xFFFFFFFF (a.d0 + b.d0) (a.d1 + b.d1) (a.d2 + b.d2) (a.d3 + b.d3) (a.d4 + b.d4)
    (a.d5 + b.d5) (a.d6 + b.d6) (a.d7 + b.d7)

/-- `secp256k1_scalar_add`, scalar_8x32_impl.h:118-145: the sum and the return value. -/
def add (a b : Sc8) : Sc8 × Nat :=
  let s := addRaw a b
  let overflow := s.2 + bit s.1.checkOverflow
  (s.1.reduce overflow, overflow)

/-- The word `((uint32_t)((bit >> 5) == i)) << (bit & 0x1F)`, scalar_8x32_impl.h:154-168 -/
def bitWord (bitn i : Nat) : Nat := u32 (bit (decide (bitn >>> 5 = i)) <<< (bitn &&& 0x1F))

/-- `secp256k1_scalar_cadd_bit`, scalar_8x32_impl.h:147-173.  `flag` is 0 or 1. -/
def caddBit (r : Sc8) (bitn : Nat) (flag : Bool) : Sc8 :=
  let bitn := bitn + (((bit flag + 2 ^ 32 - 1) % 2 ^ 32) &&& 0x100)
  (chain 0xFFFFFFFF (r.d0 + bitWord bitn 0) (r.d1 + bitWord bitn 1) (r.d2 + bitWord bitn 2)
    (r.d3 + bitWord bitn 3) (r.d4 + bitWord bitn 4) (r.d5 + bitWord bitn 5)
    (r.d6 + bitWord bitn 6) (r.d7 + bitWord bitn 7)).1

/-- `secp256k1_scalar_set_b32`, scalar_8x32_impl.h:175-191: the scalar and `*overflow`. -/
def setB32 (b : Nat → Nat) : Sc8 × Bool :=
  let r : Sc8 := ⟨readBe32 b 28, readBe32 b 24, readBe32 b 20, readBe32 b 16, readBe32 b 12,
    readBe32 b 8, readBe32 b 4, readBe32 b 0⟩
  let over := r.checkOverflow
  (r.reduce (bit over), over)

/-- `secp256k1_scalar_get_b32`, scalar_8x32_impl.h:193-204: the 32 bytes written. -/
def getB32 (a : Sc8) : List UInt8 :=
  writeBe32 a.d7 ++ writeBe32 a.d6 ++ writeBe32 a.d5 ++ writeBe32 a.d4 ++
    writeBe32 a.d3 ++ writeBe32 a.d2 ++ writeBe32 a.d1 ++ writeBe32 a.d0

/-- `secp256k1_scalar_is_zero`, scalar_8x32_impl.h:206-210 -/
def isZero (a : Sc8) : Bool :=
  decide (a.d0 ||| a.d1 ||| a.d2 ||| a.d3 ||| a.d4 ||| a.d5 ||| a.d6 ||| a.d7 = 0)

/-- `secp256k1_scalar_set_b32_seckey`, scalar_impl.h:34-40: the scalar and the return value. -/
def setB32Seckey (b : Nat → Nat) : Sc8 × Bool :=
  let r := setB32 b
  (r.1, !r.2 && !r.1.isZero)

/-- `secp256k1_scalar_negate`, scalar_8x32_impl.h:212-234 -/
def negate (a : Sc8) : Sc8 :=
  let nonzero := u32 (0xFFFFFFFF * bit (!a.isZero))
  (chain nonzero (not32 a.d0 + s8N0 + 1) (not32 a.d1 + s8N1) (not32 a.d2 + s8N2)
    (not32 a.d3 + s8N3) (not32 a.d4 + s8N4) (not32 a.d5 + s8N5) (not32 a.d6 + s8N6)
    (not32 a.d7 + s8N7)).1

/-- `secp256k1_scalar_half`, scalar_8x32_impl.h:236-282.  The assignment of `t` to a `uint32_t` keeps
its low 32 bits; `d[7]` is computed in 32 bits, which gives the low 32 bits of the same sum. -/
def half (a : Sc8) : Sc8 :=
  let mask := (2 ^ 32 - (a.d0 &&& 1)) % 2 ^ 32
  (chain 0xFFFFFFFF
    (((a.d0 >>> 1) ||| u32 (a.d1 <<< 31)) + (u32 (s8NH0 + 1) &&& mask))
    (((a.d1 >>> 1) ||| u32 (a.d2 <<< 31)) + (s8NH1 &&& mask))
    (((a.d2 >>> 1) ||| u32 (a.d3 <<< 31)) + (s8NH2 &&& mask))
    (((a.d3 >>> 1) ||| u32 (a.d4 <<< 31)) + (s8NH3 &&& mask))
    (((a.d4 >>> 1) ||| u32 (a.d5 <<< 31)) + (s8NH4 &&& mask))
    (((a.d5 >>> 1) ||| u32 (a.d6 <<< 31)) + (s8NH5 &&& mask))
    (((a.d6 >>> 1) ||| u32 (a.d7 <<< 31)) + (s8NH6 &&& mask))
    ((a.d7 >>> 1) + (s8NH7 &&& mask))).1

/-- `secp256k1_scalar_is_one`, scalar_8x32_impl.h:284-288 -/
def isOne (a : Sc8) : Bool :=
  decide ((a.d0 ^^^ 1) ||| a.d1 ||| a.d2 ||| a.d3 ||| a.d4 ||| a.d5 ||| a.d6 ||| a.d7 = 0)

/-- `secp256k1_scalar_is_high`, scalar_8x32_impl.h:290-308 -/
def isHigh (a : Sc8) : Bool :=
  let yes := false
  let no := false
  let no := no || decide (a.d7 < s8NH7)
  let yes := yes || (decide (a.d7 > s8NH7) && !no)
  let no := no || (decide (a.d6 < s8NH6) && !yes)
  let no := no || (decide (a.d5 < s8NH5) && !yes)
  let no := no || (decide (a.d4 < s8NH4) && !yes)
  let no := no || (decide (a.d3 < s8NH3) && !yes)
  let yes := yes || (decide (a.d3 > s8NH3) && !no)
  let no := no || (decide (a.d2 < s8NH2) && !yes)
  let yes := yes || (decide (a.d2 > s8NH2) && !no)
  let no := no || (decide (a.d1 < s8NH1) && !yes)
  let yes := yes || (decide (a.d1 > s8NH1) && !no)
  let yes := yes || (decide (a.d0 > s8NH0) && !no)
  yes

/-- `secp256k1_scalar_cond_negate`, scalar_8x32_impl.h:310-337: the scalar and the return value. -/
def condNegate (r : Sc8) (flag : Bool) : Sc8 × Int :=
  let mask := (2 ^ 32 - bit flag) % 2 ^ 32
  let nonzero := u32 (0xFFFFFFFF * bit (!r.isZero))
  ((chain nonzero ((r.d0 ^^^ mask) + (u32 (s8N0 + 1) &&& mask)) ((r.d1 ^^^ mask) + (s8N1 &&& mask))
    ((r.d2 ^^^ mask) + (s8N2 &&& mask)) ((r.d3 ^^^ mask) + (s8N3 &&& mask))
    ((r.d4 ^^^ mask) + (s8N4 &&& mask)) ((r.d5 ^^^ mask) + (s8N5 &&& mask))
    ((r.d6 ^^^ mask) + (s8N6 &&& mask)) ((r.d7 ^^^ mask) + (s8N7 &&& mask))).1,
    if mask = 0 then 1 else -1)

end Sc8

/-- The accumulator `(c0,c1,c2)` of the multiplication macros, scalar_8x32_impl.h:340-402. -/
structure Acc32 where
  c0 : Nat
  c1 : Nat
  c2 : Nat
deriving DecidableEq, Repr

namespace Acc32

/-- `muladd`, scalar_8x32_impl.h:343-355 -/
def muladd (c : Acc32) (a b : Nat) : Acc32 :=
  let t := u64 (a * b)
  let th := u32 (t >>> 32)
  let tl := u32 t
  let c0 := u32 (c.c0 + tl)
  let th := u32 (th + bit (decide (c0 < tl)))
  let c1 := u32 (c.c1 + th)
  let c2 := u32 (c.c2 + bit (decide (c1 < th)))
  ⟨c0, c1, c2⟩

/-- `muladd_fast`, scalar_8x32_impl.h:358-369 -/
def muladdFast (c : Acc32) (a b : Nat) : Acc32 :=
  let t := u64 (a * b)
  let th := u32 (t >>> 32)
  let tl := u32 t
  let c0 := u32 (c.c0 + tl)
  let th := u32 (th + bit (decide (c0 < tl)))
  let c1 := u32 (c.c1 + th)
  ⟨c0, c1, c.c2⟩

/-- `sumadd`, scalar_8x32_impl.h:372-378 -/
def sumadd (c : Acc32) (a : Nat) : Acc32 :=
  let c0 := u32 (c.c0 + a)
  let over := bit (decide (c0 < a))
  let c1 := u32 (c.c1 + over)
  let c2 := u32 (c.c2 + bit (decide (c1 < over)))
  ⟨c0, c1, c2⟩

/-- `sumadd_fast`, scalar_8x32_impl.h:381-386 -/
def sumaddFast (c : Acc32) (a : Nat) : Acc32 :=
  let c0 := u32 (c.c0 + a)
  let c1 := u32 (c.c1 + bit (decide (c0 < a)))
  ⟨c0, c1, c.c2⟩

/-- `extract`, scalar_8x32_impl.h:389-394: the accumulator afterwards (`n` is `c0` before) -/
def extract (c : Acc32) : Acc32 := ⟨c.c1, c.c2, 0⟩

/-- `extract_fast`, scalar_8x32_impl.h:397-402: the accumulator afterwards (`n` is `c0` before) -/
def extractFast (c : Acc32) : Acc32 := ⟨c.c1, 0, c.c2⟩

/-- Consecutive `muladd` lines of scalar_8x32_impl.h:415-631, in their order -/
def muladds (c : Acc32) (ps : List (Nat × Nat)) : Acc32 :=
  ps.foldl (fun c p => c.muladd p.1 p.2) c

end Acc32

namespace Sc8

/-- `secp256k1_scalar_mul_512`, scalar_8x32_impl.h:546-632: the sixteen words of `l`. -/
def mul512 (a b : Sc8) : List Nat :=
  let c : Acc32 := ⟨0, 0, 0⟩
  let c := c.muladdFast a.d0 b.d0
  let l0 := c.c0
  let c := c.extractFast
  let c := c.muladds [(a.d0, b.d1), (a.d1, b.d0)]
  let l1 := c.c0
  let c := c.extract
  let c := c.muladds [(a.d0, b.d2), (a.d1, b.d1), (a.d2, b.d0)]
  let l2 := c.c0
  let c := c.extract
  let c := c.muladds [(a.d0, b.d3), (a.d1, b.d2), (a.d2, b.d1), (a.d3, b.d0)]
  let l3 := c.c0
  let c := c.extract
  let c := c.muladds [(a.d0, b.d4), (a.d1, b.d3), (a.d2, b.d2), (a.d3, b.d1), (a.d4, b.d0)]
  let l4 := c.c0
  let c := c.extract
  let c := c.muladds [(a.d0, b.d5), (a.d1, b.d4), (a.d2, b.d3), (a.d3, b.d2), (a.d4, b.d1), (a.d5, b.d0)]
  let l5 := c.c0
  let c := c.extract
  let c := c.muladds [(a.d0, b.d6), (a.d1, b.d5), (a.d2, b.d4), (a.d3, b.d3), (a.d4, b.d2), (a.d5, b.d1), (a.d6, b.d0)]
  let l6 := c.c0
  let c := c.extract
  let c := c.muladds [(a.d0, b.d7), (a.d1, b.d6), (a.d2, b.d5), (a.d3, b.d4), (a.d4, b.d3), (a.d5, b.d2), (a.d6, b.d1), (a.d7, b.d0)]
  let l7 := c.c0
  let c := c.extract
  let c := c.muladds [(a.d1, b.d7), (a.d2, b.d6), (a.d3, b.d5), (a.d4, b.d4), (a.d5, b.d3), (a.d6, b.d2), (a.d7, b.d1)]
  let l8 := c.c0
  let c := c.extract
  let c := c.muladds [(a.d2, b.d7), (a.d3, b.d6), (a.d4, b.d5), (a.d5, b.d4), (a.d6, b.d3), (a.d7, b.d2)]
  let l9 := c.c0
  let c := c.extract
  let c := c.muladds [(a.d3, b.d7), (a.d4, b.d6), (a.d5, b.d5), (a.d6, b.d4), (a.d7, b.d3)]
  let l10 := c.c0
  let c := c.extract
  let c := c.muladds [(a.d4, b.d7), (a.d5, b.d6), (a.d6, b.d5), (a.d7, b.d4)]
  let l11 := c.c0
  let c := c.extract
  let c := c.muladds [(a.d5, b.d7), (a.d6, b.d6), (a.d7, b.d5)]
  let l12 := c.c0
  let c := c.extract
  let c := c.muladds [(a.d6, b.d7), (a.d7, b.d6)]
  let l13 := c.c0
  let c := c.extract
  let c := c.muladdFast a.d7 b.d7
  let l14 := c.c0
  let c := c.extractFast
  let l15 := c.c0
  [l0, l1, l2, l3, l4, l5, l6, l7, l8, l9, l10, l11, l12, l13, l14, l15]

/-- The first part of `secp256k1_scalar_reduce_512`, scalar_8x32_impl.h:413-476: 512 bits into 385,
`m0 … m12`. -/
def reduce512a (l : List Nat) : List Nat :=
  let n0 := l.getD 8 0
  let n1 := l.getD 9 0
  let n2 := l.getD 10 0
  let n3 := l.getD 11 0
  let n4 := l.getD 12 0
  let n5 := l.getD 13 0
  let n6 := l.getD 14 0
  let n7 := l.getD 15 0
  let c : Acc32 := ⟨l.getD 0 0, 0, 0⟩
  let c := c.muladdFast n0 s8NC0
  let m0 := c.c0
  let c := c.extractFast
  let c := c.sumaddFast (l.getD 1 0)
  let c := c.muladds [(n1, s8NC0), (n0, s8NC1)]
  let m1 := c.c0
  let c := c.extract
  let c := c.sumadd (l.getD 2 0)
  let c := c.muladds [(n2, s8NC0), (n1, s8NC1), (n0, s8NC2)]
  let m2 := c.c0
  let c := c.extract
  let c := c.sumadd (l.getD 3 0)
  let c := c.muladds [(n3, s8NC0), (n2, s8NC1), (n1, s8NC2), (n0, s8NC3)]
  let m3 := c.c0
  let c := c.extract
  let c := c.sumadd (l.getD 4 0)
  let c := c.muladds [(n4, s8NC0), (n3, s8NC1), (n2, s8NC2), (n1, s8NC3)]
  let c := c.sumadd n0
  let m4 := c.c0
  let c := c.extract
  let c := c.sumadd (l.getD 5 0)
  let c := c.muladds [(n5, s8NC0), (n4, s8NC1), (n3, s8NC2), (n2, s8NC3)]
  let c := c.sumadd n1
  let m5 := c.c0
  let c := c.extract
  let c := c.sumadd (l.getD 6 0)
  let c := c.muladds [(n6, s8NC0), (n5, s8NC1), (n4, s8NC2), (n3, s8NC3)]
  let c := c.sumadd n2
  let m6 := c.c0
  let c := c.extract
  let c := c.sumadd (l.getD 7 0)
  let c := c.muladds [(n7, s8NC0), (n6, s8NC1), (n5, s8NC2), (n4, s8NC3)]
  let c := c.sumadd n3
  let m7 := c.c0
  let c := c.extract
  let c := c.muladds [(n7, s8NC1), (n6, s8NC2), (n5, s8NC3)]
  let c := c.sumadd n4
  let m8 := c.c0
  let c := c.extract
  let c := c.muladds [(n7, s8NC2), (n6, s8NC3)]
  let c := c.sumadd n5
  let m9 := c.c0
  let c := c.extract
  let c := c.muladds [(n7, s8NC3)]
  let c := c.sumadd n6
  let m10 := c.c0
  let c := c.extract
  let c := c.sumaddFast n7
  let m11 := c.c0
  let c := c.extractFast
  let m12 := c.c0
  [m0, m1, m2, m3, m4, m5, m6, m7, m8, m9, m10, m11, m12]

/-- The second part of `secp256k1_scalar_reduce_512`, scalar_8x32_impl.h:478-521: 385 bits into 258,
`p0 … p8`. -/
def reduce512b (m : List Nat) : List Nat :=
  let m0 := m.getD 0 0
  let m1 := m.getD 1 0
  let m2 := m.getD 2 0
  let m3 := m.getD 3 0
  let m4 := m.getD 4 0
  let m5 := m.getD 5 0
  let m6 := m.getD 6 0
  let m7 := m.getD 7 0
  let m8 := m.getD 8 0
  let m9 := m.getD 9 0
  let m10 := m.getD 10 0
  let m11 := m.getD 11 0
  let m12 := m.getD 12 0
  let c : Acc32 := ⟨m0, 0, 0⟩
  let c := c.muladdFast m8 s8NC0
  let p0 := c.c0
  let c := c.extractFast
  let c := c.sumaddFast m1
  let c := c.muladds [(m9, s8NC0), (m8, s8NC1)]
  let p1 := c.c0
  let c := c.extract
  let c := c.sumadd m2
  let c := c.muladds [(m10, s8NC0), (m9, s8NC1), (m8, s8NC2)]
  let p2 := c.c0
  let c := c.extract
  let c := c.sumadd m3
  let c := c.muladds [(m11, s8NC0), (m10, s8NC1), (m9, s8NC2), (m8, s8NC3)]
  let p3 := c.c0
  let c := c.extract
  let c := c.sumadd m4
  let c := c.muladds [(m12, s8NC0), (m11, s8NC1), (m10, s8NC2), (m9, s8NC3)]
  let c := c.sumadd m8
  let p4 := c.c0
  let c := c.extract
  let c := c.sumadd m5
  let c := c.muladds [(m12, s8NC1), (m11, s8NC2), (m10, s8NC3)]
  let c := c.sumadd m9
  let p5 := c.c0
  let c := c.extract
  let c := c.sumadd m6
  let c := c.muladds [(m12, s8NC2), (m11, s8NC3)]
  let c := c.sumadd m10
  let p6 := c.c0
  let c := c.extract
  let c := c.sumaddFast m7
  let c := c.muladdFast m12 s8NC3
  let c := c.sumaddFast m11
  let p7 := c.c0
  let c := c.extractFast
  let p8 := u32 (c.c0 + m12)
  [p0, p1, p2, p3, p4, p5, p6, p7, p8]

/-- The third part of `secp256k1_scalar_reduce_512`, scalar_8x32_impl.h:523-540: 258 bits into 256;
the limbs and the carry `c`. -/
def reduce512c (p : List Nat) : Sc8 × Nat :=
  let p8 := p.getD 8 0
  chain 0xFFFFFFFF (p.getD 0 0 + s8NC0 * p8) (p.getD 1 0 + s8NC1 * p8) (p.getD 2 0 + s8NC2 * p8)
    (p.getD 3 0 + s8NC3 * p8) (p.getD 4 0 + p8) (p.getD 5 0) (p.getD 6 0) (p.getD 7 0)

/-- `secp256k1_scalar_reduce_512`, scalar_8x32_impl.h:404-544 -/
def reduce512 (l : List Nat) : Sc8 :=
  let r := reduce512c (reduce512b (reduce512a l))
  r.1.reduce (u32 (r.2 + bit r.1.checkOverflow))

/-- `secp256k1_scalar_mul`, scalar_8x32_impl.h:641-650 -/
def mul (a b : Sc8) : Sc8 := reduce512 (mul512 a b)

/-- `secp256k1_scalar_split_128`, scalar_8x32_impl.h:652-674: `r1` and `r2`. -/
def split128 (k : Sc8) : Sc8 × Sc8 :=
  (⟨k.d0, k.d1, k.d2, k.d3, 0, 0, 0, 0⟩, ⟨k.d4, k.d5, k.d6, k.d7, 0, 0, 0, 0⟩)

/-- `secp256k1_scalar_eq`, scalar_8x32_impl.h:676-681 -/
def eq (a b : Sc8) : Bool :=
  decide ((a.d0 ^^^ b.d0) ||| (a.d1 ^^^ b.d1) ||| (a.d2 ^^^ b.d2) ||| (a.d3 ^^^ b.d3) |||
    (a.d4 ^^^ b.d4) ||| (a.d5 ^^^ b.d5) ||| (a.d6 ^^^ b.d6) ||| (a.d7 ^^^ b.d7) = 0)

/-- The shift of `secp256k1_scalar_mul_shift_var`, scalar_8x32_impl.h:693-704 -/
def shift512 (l : List Nat) (shift : Nat) : Sc8 :=
  let shiftlimbs := shift >>> 5
  let shiftlow := shift &&& 0x1F
  let shifthigh := 32 - shiftlow
  let d0 := if shift < 512 then (l.getD (0 + shiftlimbs) 0 >>> shiftlow) |||
    (if shift < 480 ∧ shiftlow ≠ 0 then u32 (l.getD (1 + shiftlimbs) 0 <<< shifthigh) else 0)
    else 0
  let d1 := if shift < 480 then (l.getD (1 + shiftlimbs) 0 >>> shiftlow) |||
    (if shift < 448 ∧ shiftlow ≠ 0 then u32 (l.getD (2 + shiftlimbs) 0 <<< shifthigh) else 0)
    else 0
  let d2 := if shift < 448 then (l.getD (2 + shiftlimbs) 0 >>> shiftlow) |||
    (if shift < 416 ∧ shiftlow ≠ 0 then u32 (l.getD (3 + shiftlimbs) 0 <<< shifthigh) else 0)
    else 0
  let d3 := if shift < 416 then (l.getD (3 + shiftlimbs) 0 >>> shiftlow) |||
    (if shift < 384 ∧ shiftlow ≠ 0 then u32 (l.getD (4 + shiftlimbs) 0 <<< shifthigh) else 0)
    else 0
  let d4 := if shift < 384 then (l.getD (4 + shiftlimbs) 0 >>> shiftlow) |||
    (if shift < 352 ∧ shiftlow ≠ 0 then u32 (l.getD (5 + shiftlimbs) 0 <<< shifthigh) else 0)
    else 0
  let d5 := if shift < 352 then (l.getD (5 + shiftlimbs) 0 >>> shiftlow) |||
    (if shift < 320 ∧ shiftlow ≠ 0 then u32 (l.getD (6 + shiftlimbs) 0 <<< shifthigh) else 0)
    else 0
  let d6 := if shift < 320 then (l.getD (6 + shiftlimbs) 0 >>> shiftlow) |||
    (if shift < 288 ∧ shiftlow ≠ 0 then u32 (l.getD (7 + shiftlimbs) 0 <<< shifthigh) else 0)
    else 0
  let d7 := if shift < 288 then l.getD (7 + shiftlimbs) 0 >>> shiftlow else 0
  caddBit ⟨d0, d1, d2, d3, d4, d5, d6, d7⟩ 0
    (decide ((l.getD ((shift - 1) >>> 5) 0 >>> ((shift - 1) &&& 0x1f)) &&& 1 = 1))

/-- `secp256k1_scalar_mul_shift_var`, scalar_8x32_impl.h:683-707 -/
def mulShiftVar (a b : Sc8) (shift : Nat) : Sc8 := shift512 (mul512 a b) shift

/-- `secp256k1_scalar_cmov`, scalar_8x32_impl.h:709-727: the new `*r`. -/
def cmov (r a : Sc8) (flag : Bool) : Sc8 :=
  let mask0 := u32 (bit flag + (2 ^ 32 - 1))
  let mask1 := not32 mask0
  ⟨(r.d0 &&& mask0) ||| (a.d0 &&& mask1), (r.d1 &&& mask0) ||| (a.d1 &&& mask1),
    (r.d2 &&& mask0) ||| (a.d2 &&& mask1), (r.d3 &&& mask0) ||| (a.d3 &&& mask1),
    (r.d4 &&& mask0) ||| (a.d4 &&& mask1), (r.d5 &&& mask0) ||| (a.d5 &&& mask1),
    (r.d6 &&& mask0) ||| (a.d6 &&& mask1), (r.d7 &&& mask0) ||| (a.d7 &&& mask1)⟩

/-- `secp256k1_scalar_is_even`, scalar_8x32_impl.h:810-814 -/
def isEven (a : Sc8) : Bool := decide (a.d0 &&& 1 = 0)

/-- `SECP256K1_SCALAR_CONST`, scalar_8x32.h:17: the words of a constant, given by its value. -/
def const (v : Nat) : Sc8 :=
  ⟨v % 2 ^ 32, v / 2 ^ 32 % 2 ^ 32, v / 2 ^ 64 % 2 ^ 32, v / 2 ^ 96 % 2 ^ 32, v / 2 ^ 128 % 2 ^ 32,
    v / 2 ^ 160 % 2 ^ 32, v / 2 ^ 192 % 2 ^ 32, v / 2 ^ 224 % 2 ^ 32⟩

/-- `secp256k1_scalar_split_lambda`, scalar_impl.h:142-180: the pair `(r1, r2)`. -/
def splitLambda (k : Sc8) : Sc8 × Sc8 :=
  let c1 := mulShiftVar k (const splitG1) 384
  let c2 := mulShiftVar k (const splitG2) 384
  let c1 := mul c1 (const minusB1)
  let c2 := mul c2 (const minusB2)
  let r2 := (add c1 c2).1
  let r1 := mul r2 (const constLambda)
  let r1 := negate r1
  let r1 := (add r1 k).1
  (r1, r2)

end Sc8
end Secp.Model
