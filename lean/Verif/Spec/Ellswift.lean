import Verif.Spec.Keys

/-!
# Specification: the XSwiftEC map

BIP-324, section "ElligatorSwift encoding of curve X coordinates", and the paper "SwiftEC:
Shallue-van de Woestijne Indifferentiable Function To Elliptic Curves".
-/

namespace Secp.Spec

/-- The square root of -3 that BIP-324 fixes. -/
def sqrtMinus3 : Fp := 0xa2d2ba93507f1df233770c2a797962cc61f6d15da14ecd47d8d27ae1cd5f852

/-- `x` is the x coordinate of a point of the curve. -/
def OnCurve (x : Fp) : Prop := ∃ y : Fp, y ^ 2 = x ^ 3 + 7

open Classical in
/-- The first of three candidates that is on the curve (the last one if the others are not). -/
noncomputable def firstOnCurve (x1 x2 x3 : Fp) : Fp :=
  if OnCurve x1 then x1 else if OnCurve x2 then x2 else x3

/-- BIP-324, the function `XSwiftEC(u, t)`. -/
noncomputable def xswiftec (u t : Fp) : Fp :=
  let u := if u = 0 then 1 else u
  let t := if t = 0 then 1 else t
  let t := if u ^ 3 + t ^ 2 + 7 = 0 then 2 * t else t
  let X := (u ^ 3 + 7 - t ^ 2) / (2 * t)
  let Y := (X + t) / (sqrtMinus3 * u)
  firstOnCurve (u + 4 * Y ^ 2) ((-X / Y - u) / 2) ((X / Y - u) / 2)

/-- The two field elements of a 64-byte encoding, each reduced modulo `p`. -/
def ellU (ell : Bytes) : Fp := (beNat (ell.take 32) : Fp)

/-- See `ellU`. -/
def ellT (ell : Bytes) : Fp := (beNat ((ell.drop 32).take 32) : Fp)

/-- `P` is the point that a 64-byte encoding stands for: its x coordinate is `XSwiftEC(u, t)`, and the
parity of its y coordinate is that of `t`. -/
def EllDecodes (ell : Bytes) (P : Pt) : Prop :=
  P ≠ 0 ∧ ptX P = (xswiftec (ellU ell) (ellT ell)).val ∧ ptY P % 2 = (ellT ell).val % 2

/-- BIP-324: the tag of the key exchange hash. -/
def bip324Tag : Bytes := [98, 105, 112, 51, 50, 52, 95, 101, 108, 108, 115, 119, 105, 102, 116, 95, 120, 111, 110, 108, 121, 95, 101, 99, 100, 104]

end Secp.Spec
