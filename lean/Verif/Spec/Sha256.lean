import Verif.Spec.Bytes

/-!
# Specification of SHA-256, HMAC-SHA256 and the RFC 6979 generator

Written from FIPS 180-4 (sections 4.1.2, 4.2.2, 5.1.1, 5.3.3, 6.2), RFC 2104 and
RFC 6979 section 3.2.  Nothing in this file looks at the code: the constants are
defined by the roots they come from, the message schedule is the recursion of the
standard, and a message is hashed in one go from the complete byte string.
-/

namespace Secp.Spec

/-- Largest `r < 2 ^ bits` with `r ^ e ≤ v`, found bit by bit. -/
def iroot (e v : Nat) : Nat → Nat → Nat
  | 0, r => r
  | k + 1, r =>
    let r' := r + 2 ^ k
    if r' ^ e ≤ v then iroot e v k r' else iroot e v k r

/-- The first 64 primes. -/
def primes64 : List Nat :=
  [2, 3, 5, 7, 11, 13, 17, 19, 23, 29, 31, 37, 41, 43, 47, 53, 59, 61, 67, 71, 73, 79, 83, 89, 97,
   101, 103, 107, 109, 113, 127, 131, 137, 139, 149, 151, 157, 163, 167, 173, 179, 181, 191, 193,
   197, 199, 211, 223, 227, 229, 233, 239, 241, 251, 257, 263, 269, 271, 277, 281, 283, 293, 307,
   311]

/-- FIPS 180-4, 4.2.2: `K t` is the first 32 bits of the fractional part of the cube root of the
`t`-th prime: the low 32 bits of `⌊cbrt (prime) · 2 ^ 32⌋`. -/
def shaK (t : Nat) : UInt32 := UInt32.ofNat (iroot 3 (primes64.getD t 0 * 2 ^ 96) 40 0)

/-- The eight working variables / hash words `a … h`. -/
structure St where
  (a b c d e f g h : UInt32)
  deriving DecidableEq, Repr

/-- FIPS 180-4, 5.3.3: first 32 bits of the fractional parts of the square roots of the first
eight primes. -/
def shaH0 : St :=
  let r := fun i => UInt32.ofNat (iroot 2 (primes64.getD i 0 * 2 ^ 64) 40 0)
  ⟨r 0, r 1, r 2, r 3, r 4, r 5, r 6, r 7⟩

/-- FIPS 180-4, 3.2: rotation to the right. -/
def rotr (k : UInt32) (x : UInt32) : UInt32 := (x >>> k) ||| (x <<< (32 - k))

/-- FIPS 180-4, 4.1.2. -/
def Ch (x y z : UInt32) : UInt32 := (x &&& y) ^^^ (~~~x &&& z)
def Maj (x y z : UInt32) : UInt32 := (x &&& y) ^^^ (x &&& z) ^^^ (y &&& z)
def Sigma0 (x : UInt32) : UInt32 := rotr 2 x ^^^ rotr 13 x ^^^ rotr 22 x
def Sigma1 (x : UInt32) : UInt32 := rotr 6 x ^^^ rotr 11 x ^^^ rotr 25 x
def sigma0 (x : UInt32) : UInt32 := rotr 7 x ^^^ rotr 18 x ^^^ (x >>> 3)
def sigma1 (x : UInt32) : UInt32 := rotr 17 x ^^^ rotr 19 x ^^^ (x >>> 10)

/-- The `i`-th byte of a byte string, as a number. -/
def byteAt (m : Bytes) (i : Nat) : Nat := (m.getD i 0).toNat

/-- The `t`-th big endian 32-bit word of a block. -/
def wordAt (m : Bytes) (t : Nat) : UInt32 :=
  UInt32.ofNat (byteAt m (4 * t) * 2 ^ 24 + byteAt m (4 * t + 1) * 2 ^ 16 +
    byteAt m (4 * t + 2) * 2 ^ 8 + byteAt m (4 * t + 3))

/-- FIPS 180-4, 6.2.2 step 1: the message schedule. -/
def shaW (m : Bytes) (t : Nat) : UInt32 :=
  if t < 16 then wordAt m t
  else sigma1 (shaW m (t - 2)) + shaW m (t - 7) + sigma0 (shaW m (t - 15)) + shaW m (t - 16)

/-- FIPS 180-4, 6.2.2 step 3: one round. -/
def shaRound (k w : UInt32) (s : St) : St :=
  let T1 := s.h + Sigma1 s.e + Ch s.e s.f s.g + k + w
  let T2 := Sigma0 s.a + Maj s.a s.b s.c
  ⟨T1 + T2, s.a, s.b, s.c, s.d + T1, s.e, s.f, s.g⟩

/-- The first `t` rounds. -/
def shaRounds (m : Bytes) (s : St) : Nat → St
  | 0 => s
  | t + 1 => shaRound (shaK t) (shaW m t) (shaRounds m s t)

/-- FIPS 180-4, 6.2.2 step 4: addition of hash words. -/
def St.add (s t : St) : St :=
  ⟨s.a + t.a, s.b + t.b, s.c + t.c, s.d + t.d, s.e + t.e, s.f + t.f, s.g + t.g, s.h + t.h⟩

/-- Processing of one 64-byte block. -/
def compress (s : St) (m : Bytes) : St := s.add (shaRounds m s 64)

/-- Cut a byte string into blocks of 64 bytes (a trailing short block is dropped). -/
def blocks (m : Bytes) : List Bytes :=
  (List.range (m.length / 64)).map fun i => (m.drop (64 * i)).take 64

/-- FIPS 180-4, 5.1.1: append a one bit, the least number of zero bits that makes the length
congruent to 448 modulo 512, and the 64-bit length in bits. -/
def shaPad (m : Bytes) : Bytes :=
  m ++ [0x80] ++ List.replicate ((119 - m.length % 64) % 64) 0 ++ beBytes 8 (8 * m.length)

def St.toBytes (s : St) : Bytes :=
  beBytes 4 s.a.toNat ++ beBytes 4 s.b.toNat ++ beBytes 4 s.c.toNat ++ beBytes 4 s.d.toNat ++
  beBytes 4 s.e.toNat ++ beBytes 4 s.f.toNat ++ beBytes 4 s.g.toNat ++ beBytes 4 s.h.toNat

/-- SHA-256 of a byte string. -/
def sha256 (m : Bytes) : Bytes := ((blocks (shaPad m)).foldl compress shaH0).toBytes

/-- The tagged hash of BIP-340: `SHA256 (SHA256 tag ‖ SHA256 tag ‖ m)`. -/
def taggedHash (tag m : Bytes) : Bytes := sha256 (sha256 tag ++ sha256 tag ++ m)

/-- RFC 2104: the key brought to the block size of 64 bytes. -/
def hmacKey (key : Bytes) : Bytes :=
  let k := if key.length ≤ 64 then key else sha256 key
  k ++ List.replicate (64 - k.length) 0

/-- RFC 2104: `H (K xor opad, H (K xor ipad, text))`. -/
def hmac (key m : Bytes) : Bytes :=
  sha256 ((hmacKey key).map (· ^^^ 0x5c) ++ sha256 ((hmacKey key).map (· ^^^ 0x36) ++ m))

/-- State `(K, V)` of the HMAC generator of RFC 6979, section 3.2. -/
structure Drbg where
  (K V : Bytes)
  deriving DecidableEq, Repr

/-- RFC 6979, 3.2 steps b to g, where `seed` stands for
`int2octets (x) ‖ bits2octets (h1) ‖ additional data`. -/
def drbgInit (seed : Bytes) : Drbg :=
  let V0 := List.replicate 32 0x01
  let K0 := List.replicate 32 0x00
  let K1 := hmac K0 (V0 ++ [0x00] ++ seed)
  let V1 := hmac K1 V0
  let K2 := hmac K1 (V1 ++ [0x01] ++ seed)
  let V2 := hmac K2 V1
  ⟨K2, V2⟩

/-- RFC 6979, 3.2 step h: the update made before another candidate is produced. -/
def drbgRetry (s : Drbg) : Drbg :=
  let K := hmac s.K (s.V ++ [0x00])
  ⟨K, hmac K s.V⟩

/-- RFC 6979, 3.2 step h.2: `k` times `V = HMAC_K (V); T = T ‖ V`. -/
def drbgExtend (K V : Bytes) : Nat → Bytes × Bytes
  | 0 => ([], V)
  | k + 1 =>
    let V' := hmac K V
    let r := drbgExtend K V' k
    (V' ++ r.1, r.2)

/-- The first `len` bytes of `T`, and the new state. -/
def drbgOutput (s : Drbg) (len : Nat) : Bytes × Drbg :=
  let r := drbgExtend s.K s.V ((len + 31) / 32)
  (r.1.take len, ⟨s.K, r.2⟩)

/-- The outputs of consecutive requests: the first directly after initialisation, each further
one after the retry update. -/
def drbgOutputs (s : Drbg) : List Nat → List Bytes
  | [] => []
  | len :: lens =>
    let r := drbgOutput s len
    r.1 :: drbgOutputs (drbgRetry r.2) lens

end Secp.Spec
