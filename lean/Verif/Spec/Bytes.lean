/-! Big and little endian encodings of natural numbers as byte strings. -/

namespace Secp.Spec

abbrev Bytes := List UInt8

/-- Big endian encoding of `x` in `k` bytes. -/
def beBytes : Nat → Nat → Bytes
  | 0, _ => []
  | k + 1, x => beBytes k (x / 256) ++ [UInt8.ofNat (x % 256)]

/-- The number that a byte string encodes in big endian. -/
def beNat (b : Bytes) : Nat := b.foldl (fun a x => a * 256 + x.toNat) 0

/-- Little endian encoding of `x` in `k` bytes. -/
def leBytes (k x : Nat) : Bytes := (beBytes k x).reverse

/-- The number that a byte string encodes in little endian. -/
def leNat (b : Bytes) : Nat := beNat b.reverse

end Secp.Spec
