import Verif.Model.Inplace
import Verif.Spec.Rep

/-!
# Specification: what a run on memory must leave behind
-/

namespace Secp.Model.Mem

variable {α : Type}

/-- The run ends without undefined behaviour in a memory with the property. -/
def Ends (s : Option (Mem α)) (P : Mem α → Prop) : Prop := ∃ m', s = some m' ∧ P m'

/-- Only the three coordinates and the flag of the object `r`, the local variables and the field element
at `w` may differ. -/
def SameBut (r : ℕ) (w : Option FePtr) (m m' : Mem α) : Prop :=
  (∀ o c, o ≠ r → w ≠ some (.obj o c) → m'.fe (.obj o c) = m.fe (.obj o c)) ∧
    ∀ o, o ≠ r → m'.inf o = m.inf o

/-- Only `x`, `y` and the flag of the affine object `r` and the local variables may differ. -/
def SameButGe (r : ℕ) (m m' : Mem α) : Prop :=
  SameBut r none m m' ∧ m'.fe (pz r) = m.fe (pz r)

/-- The pointer is neither into one of the objects nor to a local variable of the called function. -/
def Apart (q : FePtr) (os : List ℕ) : Prop := ∃ o c, q = .obj o c ∧ o ∉ os

/-- The objects outside the run `r, …, r + k - 1` are the same. -/
def SameOut (r k : ℕ) (m m' : Mem α) : Prop :=
  (∀ o c, o < r ∨ r + k ≤ o → m'.fe (.obj o c) = m.fe (.obj o c)) ∧
    ∀ o, o < r ∨ r + k ≤ o → m'.inf o = m.inf o

/-- The array of `k` Jacobian points at `a`. -/
def Mem.gejs (m : Mem α) (a k : ℕ) : List (Gej α) := (List.range' a k).map m.gej
/-- The array of `k` affine points at `a`. -/
def Mem.ges (m : Mem α) (a k : ℕ) : List (Ge α) := (List.range' a k).map m.ge
/-- The array of `k` field elements at `a`. -/
def Mem.xs (m : Mem α) (a k : ℕ) : List α := (List.range' a k).map fun o => m.fe (px o)

/-- The types of C: `jac o` says that `o` is a `secp256k1_gej`, otherwise it is a `secp256k1_ge`. -/
def MOp.Typed (jac : ℕ → Prop) : MOp → Prop
  | .double r a | .doubleVar r a | .gejNeg r a | .gejCopy r a | .cmov r a _ => jac r ∧ jac a
  | .addVar r a b => jac r ∧ jac a ∧ jac b
  | .addGeVar r a b | .addGe r a b => jac r ∧ jac a ∧ ¬ jac b
  | .geNeg r a => ¬ jac r ∧ ¬ jac a
  | .setGe r a => jac r ∧ ¬ jac a
  | .setGej r a | .setGejVar r a => ¬ jac r ∧ jac a

/-- What the call means for the points that the objects hold. -/
def MOp.points (S : ℕ → Pt) : MOp → ℕ → Pt
  | .double r a | .doubleVar r a => Function.update S r (S a + S a)
  | .addVar r a b | .addGeVar r a b | .addGe r a b => Function.update S r (S a + S b)
  | .gejNeg r a | .geNeg r a => Function.update S r (-S a)
  | .setGe r a | .setGej r a | .setGejVar r a | .gejCopy r a => Function.update S r (S a)
  | .cmov r a flag => Function.update S r (if flag then S a else S r)

/-- group_impl.h:730: the constant-time addition does not take the point at infinity as `b`. -/
def MOp.Pre (S : ℕ → Pt) : MOp → Prop
  | .addGe _ _ b => S b ≠ 0
  | _ => True

/-- Every call of the program has its precondition. -/
def Pres : (ℕ → Pt) → List MOp → Prop
  | _, [] => True
  | S, op :: prog => op.Pre S ∧ Pres (op.points S) prog

end Secp.Model.Mem
