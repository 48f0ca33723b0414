import Verif.Spec.Curve
import Verif.Model.Group

/-!
# Specification: which point a C point structure stands for

`GeRep b a P` / `GejRep b a P`: the affine / Jacobian structure `a` (group.h:16-20, 22-33)
represents the point `P` of `y² = x³ + b`.  This is the meaning documented in group.h.
-/

namespace Secp

open WeierstrassCurve Model

variable {F : Type} [Field F]

/-- The affine structure `a` represents the point `P` of `y² = x³ + b`. -/
def GeRep (b : F) (a : Ge F) (P : (curve b).Point) : Prop :=
  if a.infinity then P = 0
  else ∃ h : (curve b).Nonsingular a.x a.y, P = .some a.x a.y h

/-- The Jacobian structure `a` represents the point `P = (x/z², y/z³)` of `y² = x³ + b`. -/
def GejRep (b : F) (a : Gej F) (P : (curve b).Point) : Prop :=
  if a.infinity then P = 0
  else a.z ≠ 0 ∧ ∃ h : (curve b).Nonsingular (a.x / a.z ^ 2) (a.y / a.z ^ 3), P = .some _ _ h

end Secp
