import Verif.Spec.Curve
import Verif.Spec.Bytes

/-!
# Specification: encodings of points, and how key objects hold them

SEC 1, section 2.3.3: compressed and uncompressed encodings.  BIP-340: x-only encodings.
-/

namespace Secp.Spec

open WeierstrassCurve

/-- The x coordinate of a point as an integer in `[0, p)` (0 for infinity). -/
def ptX : Pt → ℕ
  | .zero => 0
  | .some x _ _ => x.val

/-- The y coordinate of a point as an integer in `[0, p)` (0 for infinity). -/
def ptY : Pt → ℕ
  | .zero => 0
  | .some _ y _ => y.val

/-- SEC 1 compressed encoding: 02 or 03 according to the parity of y, then x. -/
def compressed (P : Pt) : Bytes := (if ptY P % 2 = 1 then 3 else 2) :: beBytes 32 (ptX P)

/-- SEC 1 uncompressed encoding: 04, x, y. -/
def uncompressed (P : Pt) : Bytes := 4 :: (beBytes 32 (ptX P) ++ beBytes 32 (ptY P))

/-- The hybrid encoding: 06 or 07 according to the parity of y, x, y. -/
def hybrid (P : Pt) : Bytes :=
  (if ptY P % 2 = 1 then 7 else 6) :: (beBytes 32 (ptX P) ++ beBytes 32 (ptY P))

/-- The contents of a public key object that holds the point `P`: both coordinates in little endian.
Infinity gives the all-zero object that failing calls leave behind. -/
def keyObject (P : Pt) : Bytes := leBytes 32 (ptX P) ++ leBytes 32 (ptY P)

/-- A signature object that holds `r` and `s`. -/
def sigObject (r s : Fn) : Bytes := leBytes 32 r.val ++ leBytes 32 s.val

/-- The point with the same x coordinate and an even y coordinate. -/
def evenY (P : Pt) : Pt := if ptY P % 2 = 1 then -P else P

/-- The byte strings that SEC 1 (with the hybrid form) accepts as the encoding of a public key, in
elementary terms: the prefix, the ranges of the coordinates, the curve equation, the parity. -/
def Sec1Valid (b : Bytes) : Prop :=
  let x := beNat ((b.drop 1).take 32)
  let y := beNat ((b.drop 33).take 32)
  (b.length = 33 ∧ (b.headD 0 = 2 ∨ b.headD 0 = 3) ∧ x < p ∧ ∃ y : Fp, y ^ 2 = (x : Fp) ^ 3 + 7) ∨
  (b.length = 65 ∧ (b.headD 0 = 4 ∨ (b.headD 0 = 6 ∧ y % 2 = 0) ∨ (b.headD 0 = 7 ∧ y % 2 = 1)) ∧
    x < p ∧ y < p ∧ (y : Fp) ^ 2 = (x : Fp) ^ 3 + 7)

/-- BIP-340: the x-only encoding of a point. -/
def xonly (P : Pt) : Bytes := beBytes 32 (ptX P)

end Secp.Spec
