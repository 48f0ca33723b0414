import Verif.Spec.Ellswift
import Verif.Spec.Sha256

/-!
# Specification: how an ElligatorSwift encoding is chosen

BIP-324, the function `XSwiftECInv(x, u, case)`, and the search over pseudorandom `u` and `case` that the
library documents at the top of its ellswift module.
-/

namespace Secp.Spec

/-- The square root that the library takes: of the two, the one that is a square itself. -/
noncomputable def rootFp (a : Fp) : Fp := a ^ ((p + 1) / 4)

/-- The last lines of `XSwiftECInv`. -/
noncomputable def invResult (c : ℕ) (w u v : Fp) : Fp :=
  match c with
  | 0 | 2 => -w * (u * (1 - sqrtMinus3) / 2 + v)
  | 1 | 3 => w * (u * (1 + sqrtMinus3) / 2 + v)
  | 4 | 6 => w * (u * (1 - sqrtMinus3) / 2 + v)
  | _ => -w * (u * (1 + sqrtMinus3) / 2 + v)

open Classical in
/-- BIP-324, the function `XSwiftECInv(x, u, case)`, for `case` from 0 to 7. -/
noncomputable def xswiftecInv (x u : Fp) (c : ℕ) : Option Fp :=
  if c = 0 ∨ c = 1 ∨ c = 4 ∨ c = 5 then
    let s := -(u ^ 3 + 7) / (u ^ 2 + u * x + x ^ 2)
    if OnCurve (-x - u) ∨ ¬ IsSquare s then none else some (invResult c (rootFp s) u x)
  else
    let s := x - u
    let q := -s * (4 * (u ^ 3 + 7) + 3 * s * u ^ 2)
    if s = 0 ∨ ¬ IsSquare q ∨ (c % 2 = 1 ∧ q = 0) ∨ ¬ IsSquare s then none
    else some (invResult c (rootFp s) u ((-u + rootFp q / s) / 2))

/-- The pseudorandom generator: hash of the input and a 32-bit little-endian counter. -/
def ellRandom (m : Bytes) (k : ℕ) : Bytes := sha256 (m ++ leBytes 4 k)

/-- What iteration `i` of the search draws: `u` as 32 bytes, and the case.  Every 64 iterations share one
output of the generator for their cases, four bits each, taken from the end; each has one of its own
for `u`. -/
def ellDraw (m : Bytes) (i : ℕ) : Bytes × ℕ :=
  let first := 65 * (i / 64)
  let j := 63 - i % 64
  (ellRandom m (first + 1 + i % 64), ((ellRandom m first).getD (j / 2) 0).toNat / 16 ^ (j % 2) % 8)

/-- The encoding found in iteration `i` for the point with coordinates `x`, `y`: `t` gets the parity
of `y`. -/
noncomputable def ellTry (m : Bytes) (x y : Fp) (i : ℕ) : Option Bytes :=
  (xswiftecInv x (beNat (ellDraw m i).1 : Fp) (ellDraw m i).2).map fun t =>
    (ellDraw m i).1 ++ beBytes 32 (if t.val % 2 = y.val % 2 then t else -t).val

/-- The tags of the two hash functions. -/
def ellEncodeTag : Bytes := [115, 101, 99, 112, 50, 53, 54, 107, 49, 95, 101, 108, 108, 115, 119, 105, 102, 116, 95, 101, 110, 99, 111, 100, 101]

/-- See `ellEncodeTag`. -/
def ellCreateTag : Bytes := [115, 101, 99, 112, 50, 53, 54, 107, 49, 95, 101, 108, 108, 115, 119, 105, 102, 116, 95, 99, 114, 101, 97, 116, 101]

/-- The input of the generator when a public key is encoded. -/
noncomputable def ellEncodeSeed (P : Pt) (rnd : Bytes) : Bytes :=
  sha256 ellEncodeTag ++ sha256 ellEncodeTag ++ compressed P ++ List.replicate 31 0 ++ rnd

/-- The input of the generator when a key is encoded from its secret key. -/
def ellCreateSeed (seckey : Bytes) (aux : Option Bytes) : Bytes :=
  sha256 ellCreateTag ++ sha256 ellCreateTag ++ seckey ++ List.replicate 32 0 ++ aux.getD []

end Secp.Spec
