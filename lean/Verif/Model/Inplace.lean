import Verif.Model.Group

/-!
# The group code on memory (`/repo/src/group_impl.h`)

`Model/Group.lean` passes points by value.  C passes pointers, and the library calls these functions
with the output pointer equal to an input (`secp256k1_gej_add_ge_var(r, r, &tmpa, NULL)`), reads through
an input pointer after it has written through the output pointer, and uses coordinates of the output as
scratch space.  Here every function is a list of statements on a memory, in the order of the C code, and
pointers are parameters that may or may not be equal.

* An object of type `secp256k1_gej` or `secp256k1_ge` (which has no `z`) has a number; `obj o c` is the
  address of one of its coordinates.  Objects with different numbers do not overlap.
* A local variable `secp256k1_fe` of the running function is `loc k`; a function that is called may
  overwrite the local variables of its caller, which is harmless where the caller returns right after the
  call, as it does here.
* A field function reads its arguments, then writes its result (`field.h`).  `secp256k1_fe_mul` is
  undefined if the second factor is the output or the first factor (field_impl.h:341-342; the pointer is
  `restrict`): that run is `none`.
-/

namespace Secp.Model.Mem

open FeOps

/-- The coordinates of a point object, group.h:16-20 and 28-33 -/
inductive Coord
  | x | y | z
deriving DecidableEq, Repr

/-- The address of a field element. -/
inductive FePtr
  | obj (o : ℕ) (c : Coord)
  | loc (k : ℕ)
deriving DecidableEq, Repr

/-- `&o->x` -/
abbrev px (o : ℕ) : FePtr := .obj o .x
/-- `&o->y` -/
abbrev py (o : ℕ) : FePtr := .obj o .y
/-- `&o->z` -/
abbrev pz (o : ℕ) : FePtr := .obj o .z

/-- The field elements and the infinity flags. -/
structure Mem (α : Type) where
  fe : FePtr → α
  inf : ℕ → Bool

variable {α : Type}

/-- Store a field element. -/
def Mem.wr (m : Mem α) (q : FePtr) (v : α) : Mem α :=
  ⟨fun q' => if q' = q then v else m.fe q', m.inf⟩

/-- Store an infinity flag. -/
def Mem.wrInf (m : Mem α) (o : ℕ) (b : Bool) : Mem α :=
  ⟨m.fe, fun o' => if o' = o then b else m.inf o'⟩

/-- The Jacobian point at `o`. -/
def Mem.gej (m : Mem α) (o : ℕ) : Gej α := ⟨m.fe (px o), m.fe (py o), m.fe (pz o), m.inf o⟩

/-- The affine point at `o`. -/
def Mem.ge (m : Mem α) (o : ℕ) : Ge α := ⟨m.fe (px o), m.fe (py o), m.inf o⟩

/-- A statement: the memory after it; `none` is undefined behaviour. -/
abbrev Stmt (α : Type) := Mem α → Option (Mem α)

/-- Statements one after the other. -/
def run : List (Stmt α) → Stmt α
  | [], m => some m
  | s :: l, m => (s m).bind (run l)

variable [FeOps α]

/-- `secp256k1_fe_mul(r, a, b)`, field_impl.h:336-350 -/
def feMul (r a b : FePtr) : Stmt α := fun m =>
  if r = b ∨ a = b then none else some (m.wr r (mul (m.fe a) (m.fe b)))

/-- `secp256k1_fe_sqr(r, a)`, field_impl.h:352-361 -/
def feSqr (r a : FePtr) : Stmt α := fun m => some (m.wr r (sqr (m.fe a)))

/-- `secp256k1_fe_negate(r, a, k)`, field.h:211, field_impl.h:297-307 -/
def feNegate (r a : FePtr) (k : ℕ) : Stmt α := fun m => some (m.wr r (negate (m.fe a) k))

/-- `secp256k1_fe_add(r, a)`, field_impl.h:323-333 -/
def feAdd (r a : FePtr) : Stmt α := fun m => some (m.wr r (add (m.fe r) (m.fe a)))

/-- `secp256k1_fe_mul_int(r, k)`, field.h:233, field_impl.h:310-320 -/
def feMulInt (r : FePtr) (k : ℕ) : Stmt α := fun m => some (m.wr r (mulInt (m.fe r) k))

/-- `secp256k1_fe_half(r)`, field_impl.h:444-452 -/
def feHalf (r : FePtr) : Stmt α := fun m => some (m.wr r (half (m.fe r)))

/-- `secp256k1_fe_set_int(r, k)`, field_impl.h:217-225 -/
def feSetInt (r : FePtr) (k : ℕ) : Stmt α := fun m => some (m.wr r (setInt k))

/-- `*r = *a` -/
def feCopy (r a : FePtr) : Stmt α := fun m => some (m.wr r (m.fe a))

/-- `secp256k1_fe_normalize_weak(r)`, field_impl.h:182-189 -/
def feNormalizeWeak (r : FePtr) : Stmt α := fun m => some (m.wr r (normalizeWeak (m.fe r)))

/-- `secp256k1_fe_inv(r, a)`, field_impl.h:394-404 -/
def feInv (r a : FePtr) : Stmt α := fun m => some (m.wr r (inv (m.fe a)))

/-- `secp256k1_fe_inv_var(r, a)`, field_impl.h:407-417 -/
def feInvVar (r a : FePtr) : Stmt α := fun m => some (m.wr r (invVar (m.fe a)))

/-- `secp256k1_fe_cmov(r, a, flag)`, field_impl.h:364-374; the flag is read from the memory. -/
def feCmov (r a : FePtr) (flag : Mem α → Bool) : Stmt α := fun m =>
  some (m.wr r (cmov (m.fe r) (m.fe a) (flag m)))

/-- `secp256k1_fe_cmov(r, &secp256k1_fe_one, flag)`, group_impl.h:838; the constant is not in the
memory. -/
def feCmovOne (r : FePtr) (flag : Mem α → Bool) : Stmt α := fun m =>
  some (m.wr r (cmov (m.fe r) (setInt 1) (flag m)))

/-- `r->infinity = e` -/
def setInf (r : ℕ) (e : Mem α → Bool) : Stmt α := fun m => some (m.wrInf r (e m))

/-- `if (c) { s } else { t }` -/
def ite' (c : Mem α → Bool) (s t : List (Stmt α)) : Stmt α := fun m =>
  if c m then run s m else run t m

/-- `if (rzr != NULL) { … }` with statements that use `rzr` -/
def ifPtr (rzr : Option FePtr) (s : FePtr → List (Stmt α)) : Stmt α :=
  match rzr with
  | none => some
  | some q => run (s q)

/-- `*r = *a` for `secp256k1_gej` -/
def gejCopy (r a : ℕ) : Stmt α :=
  run [feCopy (px r) (px a), feCopy (py r) (py a), feCopy (pz r) (pz a), setInf r (·.inf a)]

/-- `*r = *a` for `secp256k1_ge` -/
def geCopy (r a : ℕ) : Stmt α :=
  run [feCopy (px r) (px a), feCopy (py r) (py a), setInf r (·.inf a)]

/-- `secp256k1_ge_set_gej_zinv(r, a, zi)`, group_impl.h:99-113; locals `zi2`, `zi3` = 0, 1 -/
def geSetGejZinvM (r a : ℕ) (zi : FePtr) : Stmt α := run [
  feSqr (.loc 0) zi,
  feMul (.loc 1) (.loc 0) zi,
  feMul (px r) (px a) (.loc 0),
  feMul (py r) (py a) (.loc 1),
  setInf r (·.inf a)]

/-- `secp256k1_ge_set_ge_zinv(r, a, zi)`, group_impl.h:116-130; locals `zi2`, `zi3` = 0, 1 -/
def geSetGeZinvM (r a : ℕ) (zi : FePtr) : Stmt α := run [
  feSqr (.loc 0) zi,
  feMul (.loc 1) (.loc 0) zi,
  feMul (px r) (px a) (.loc 0),
  feMul (py r) (py a) (.loc 1),
  setInf r (·.inf a)]

/-- `secp256k1_ge_set_xy(r, x, y)`, group_impl.h:132-141 -/
def geSetXYM (r : ℕ) (x y : FePtr) : Stmt α := run [
  setInf r (fun _ => false),
  feCopy (px r) x,
  feCopy (py r) y]

/-- `secp256k1_ge_neg(r, a)`, group_impl.h:149-157 -/
def geNegM (r a : ℕ) : Stmt α := run [
  geCopy r a,
  feNormalizeWeak (py r),
  feNegate (py r) (py r) 1]

/-- `secp256k1_ge_set_gej(r, a)`, group_impl.h:159-175; locals `z2`, `z3` = 0, 1 -/
def geSetGejM (r a : ℕ) : Stmt α := run [
  setInf r (·.inf a),
  feInv (pz a) (pz a),
  feSqr (.loc 0) (pz a),
  feMul (.loc 1) (pz a) (.loc 0),
  feMul (px a) (px a) (.loc 0),
  feMul (py a) (py a) (.loc 1),
  feSetInt (pz a) 1,
  feCopy (px r) (px a),
  feCopy (py r) (py a)]

/-- `secp256k1_ge_set_infinity(r)`, group_impl.h:331-337 -/
def geSetInfinityM (r : ℕ) : Stmt α := run [
  setInf r (fun _ => true),
  feSetInt (px r) 0,
  feSetInt (py r) 0]

/-- `secp256k1_gej_set_infinity(r)`, group_impl.h:322-329 -/
def gejSetInfinityM (r : ℕ) : Stmt α := run [
  setInf r (fun _ => true),
  feSetInt (px r) 0,
  feSetInt (py r) 0,
  feSetInt (pz r) 0]

/-- `secp256k1_ge_set_gej_var(r, a)`, group_impl.h:177-196; locals `z2`, `z3` = 0, 1 -/
def geSetGejVarM (r a : ℕ) : Stmt α :=
  ite' (·.inf a) [geSetInfinityM r] [
    setInf r (fun _ => false),
    feInvVar (pz a) (pz a),
    feSqr (.loc 0) (pz a),
    feMul (.loc 1) (pz a) (.loc 0),
    feMul (px a) (px a) (.loc 0),
    feMul (py a) (py a) (.loc 1),
    feSetInt (pz a) 1,
    geSetXYM r (px a) (py a)]

/-- `secp256k1_gej_set_ge(r, a)`, group_impl.h:367-376 -/
def gejSetGeM (r a : ℕ) : Stmt α := run [
  setInf r (·.inf a),
  feCopy (px r) (px a),
  feCopy (py r) (py a),
  feSetInt (pz r) 1]

/-- `secp256k1_gej_neg(r, a)`, group_impl.h:427-438 -/
def gejNegM (r a : ℕ) : Stmt α := run [
  setInf r (·.inf a),
  feCopy (px r) (px a),
  feCopy (py r) (py a),
  feCopy (pz r) (pz a),
  feNormalizeWeak (py r),
  feNegate (py r) (py r) 1]

/-- `secp256k1_gej_double(r, a)`, group_impl.h:460-493; locals `l`, `s`, `t` = 0, 1, 2 -/
def gejDoubleM (r a : ℕ) : Stmt α := run [
  setInf r (·.inf a),
  feMul (pz r) (pz a) (py a),
  feSqr (.loc 1) (py a),
  feSqr (.loc 0) (px a),
  feMulInt (.loc 0) 3,
  feHalf (.loc 0),
  feNegate (.loc 2) (.loc 1) 1,
  feMul (.loc 2) (.loc 2) (px a),
  feSqr (px r) (.loc 0),
  feAdd (px r) (.loc 2),
  feAdd (px r) (.loc 2),
  feSqr (.loc 1) (.loc 1),
  feAdd (.loc 2) (px r),
  feMul (py r) (.loc 2) (.loc 0),
  feAdd (py r) (.loc 1),
  feNegate (py r) (py r) 2]

/-- `secp256k1_gej_double_var(r, a, rzr)`, group_impl.h:495-524 -/
def gejDoubleVarM (r a : ℕ) (rzr : Option FePtr) : Stmt α :=
  ite' (·.inf a)
    [gejSetInfinityM r, ifPtr rzr fun q => [feSetInt q 1]]
    [ifPtr rzr fun q => [feCopy q (py a), feNormalizeWeak q], gejDoubleM r a]

/-- The last statements of the three variable-time additions, after `r->z` is written:
group_impl.h:572-585, 634-647 and 705-718 -/
def addTail (r : ℕ) : List (Stmt α) := [
  feSqr (.loc 8) (.loc 6),
  feNegate (.loc 8) (.loc 8) 1,
  feMul (.loc 9) (.loc 8) (.loc 6),
  feMul (.loc 10) (.loc 2) (.loc 8),
  feSqr (px r) (.loc 7),
  feAdd (px r) (.loc 9),
  feAdd (px r) (.loc 10),
  feAdd (px r) (.loc 10),
  feAdd (.loc 10) (px r),
  feMul (py r) (.loc 10) (.loc 7),
  feMul (.loc 9) (.loc 9) (.loc 4),
  feAdd (py r) (.loc 9)]

/-- `secp256k1_gej_add_var`: the statements before the first test,
group_impl.h:545-552; the numbers of the local variables are below. -/
def addVar₁ (a b : ℕ) : List (Stmt α) := [
  feSqr (.loc 0) (pz b),
  feSqr (.loc 1) (pz a),
  feMul (.loc 2) (px a) (.loc 0),
  feMul (.loc 3) (px b) (.loc 1),
  feMul (.loc 4) (py a) (.loc 0),
  feMul (.loc 4) (.loc 4) (pz b),
  feMul (.loc 5) (py b) (.loc 1),
  feMul (.loc 5) (.loc 5) (pz a),
  feNegate (.loc 6) (.loc 2) 1,
  feAdd (.loc 6) (.loc 3),
  feNegate (.loc 7) (.loc 5) 1,
  feAdd (.loc 7) (.loc 4)]

/-- `secp256k1_gej_add_var(r, a, b, rzr)`, group_impl.h:526-588; locals `z22`, `z12`, `u1`, `u2`, `s1`,
`s2`, `h`, `i`, `h2`, `h3`, `t` = 0, …, 10 -/
def gejAddVarM (r a b : ℕ) (rzr : Option FePtr) : Stmt α :=
  ite' (·.inf a) [gejCopy r b] [
  ite' (·.inf b) [ifPtr rzr fun q => [feSetInt q 1], gejCopy r a] (addVar₁ a b ++ [
    ite' (fun m => normalizesToZero (m.fe (.loc 6)))
      [ite' (fun m => normalizesToZero (m.fe (.loc 7)))
        [gejDoubleVarM r a rzr]
        [ifPtr rzr fun q => [feSetInt q 0], gejSetInfinityM r]] ([
      setInf r (fun _ => false),
      feMul (.loc 10) (.loc 6) (pz b),
      ifPtr rzr fun q => [feCopy q (.loc 10)],
      feMul (pz r) (pz a) (.loc 10)] ++ addTail r)])]

/-- `secp256k1_gej_add_ge_var`: the statements before the first test,
group_impl.h:609-615; the numbers of the local variables are below. -/
def addGeVar₁ (a b : ℕ) : List (Stmt α) := [
  feSqr (.loc 1) (pz a),
  feCopy (.loc 2) (px a),
  feMul (.loc 3) (px b) (.loc 1),
  feCopy (.loc 4) (py a),
  feMul (.loc 5) (py b) (.loc 1),
  feMul (.loc 5) (.loc 5) (pz a),
  feNegate (.loc 6) (.loc 2) gejXMag,
  feAdd (.loc 6) (.loc 3),
  feNegate (.loc 7) (.loc 5) 1,
  feAdd (.loc 7) (.loc 4)]

/-- `secp256k1_gej_add_ge_var(r, a, b, rzr)`, group_impl.h:590-651; locals `z12`, `u1`, `u2`, `s1`, `s2`,
`h`, `i`, `h2`, `h3`, `t` = 1, …, 10 -/
def gejAddGeVarM (r a b : ℕ) (rzr : Option FePtr) : Stmt α :=
  ite' (·.inf a) [gejSetGeM r b] [
  ite' (·.inf b) [ifPtr rzr fun q => [feSetInt q 1], gejCopy r a] (addGeVar₁ a b ++ [
    ite' (fun m => normalizesToZero (m.fe (.loc 6)))
      [ite' (fun m => normalizesToZero (m.fe (.loc 7)))
        [gejDoubleVarM r a rzr]
        [ifPtr rzr fun q => [feSetInt q 0], gejSetInfinityM r]] ([
      setInf r (fun _ => false),
      ifPtr rzr fun q => [feCopy q (.loc 6)],
      feMul (pz r) (pz a) (.loc 6)] ++ addTail r)])]

/-- `secp256k1_gej_add_zinv_var`: the statements before the first test,
group_impl.h:684-692; the numbers of the local variables are below. -/
def addZinvVar₁ (a b : ℕ) (bzinv : FePtr) : List (Stmt α) := [
  feMul (.loc 0) (pz a) bzinv,
  feSqr (.loc 1) (.loc 0),
  feCopy (.loc 2) (px a),
  feMul (.loc 3) (px b) (.loc 1),
  feCopy (.loc 4) (py a),
  feMul (.loc 5) (py b) (.loc 1),
  feMul (.loc 5) (.loc 5) (.loc 0),
  feNegate (.loc 6) (.loc 2) gejXMag,
  feAdd (.loc 6) (.loc 3),
  feNegate (.loc 7) (.loc 5) 1,
  feAdd (.loc 7) (.loc 4)]

/-- `secp256k1_gej_add_zinv_var(r, a, b, bzinv)`, group_impl.h:653-721; locals `az`, `z12`, `u1`, `u2`,
`s1`, `s2`, `h`, `i`, `h2`, `h3`, `t` = 0, …, 10, and `bzinv2`, `bzinv3` = 11, 12 -/
def gejAddZinvVarM (r a b : ℕ) (bzinv : FePtr) : Stmt α :=
  ite' (·.inf a) [
    setInf r (·.inf b),
    feSqr (.loc 11) bzinv,
    feMul (.loc 12) (.loc 11) bzinv,
    feMul (px r) (px b) (.loc 11),
    feMul (py r) (py b) (.loc 12),
    feSetInt (pz r) 1] [
  ite' (·.inf b) [gejCopy r a] (addZinvVar₁ a b bzinv ++ [
    ite' (fun m => normalizesToZero (m.fe (.loc 6)))
      [ite' (fun m => normalizesToZero (m.fe (.loc 7)))
        [gejDoubleVarM r a none]
        [gejSetInfinityM r]] ([
      setInf r (fun _ => false),
      feMul (pz r) (pz a) (.loc 6)] ++ addTail r)])]

/-- The first half of `secp256k1_gej_add_ge(r, a, b)`, group_impl.h:783-794; locals `zz`, `u1`, `u2`, `s1`,
`s2`, `t`, `tt`, `m`, `n`, `q`, `rr`, `m_alt`, `rr_alt` = 0, …, 12 -/
def gejAddGeM₁ (a b : ℕ) : List (Stmt α) := [
  feSqr (.loc 0) (pz a),
  feCopy (.loc 1) (px a),
  feMul (.loc 2) (px b) (.loc 0),
  feCopy (.loc 3) (py a),
  feMul (.loc 4) (py b) (.loc 0),
  feMul (.loc 4) (.loc 4) (pz a),
  feCopy (.loc 5) (.loc 1),
  feAdd (.loc 5) (.loc 2),
  feCopy (.loc 7) (.loc 3),
  feAdd (.loc 7) (.loc 4),
  feSqr (.loc 10) (.loc 5),
  feNegate (.loc 11) (.loc 2) 1,
  feMul (.loc 6) (.loc 1) (.loc 11),
  feAdd (.loc 10) (.loc 6)]

/-- The middle, group_impl.h:803-823, with `degenerate` computed in line 797 (no statement in between
writes `m`) -/
def gejAddGeM₂ (degenerate : Bool) : List (Stmt α) := [
  feCopy (.loc 12) (.loc 3),
  feMulInt (.loc 12) 2,
  feAdd (.loc 11) (.loc 1),
  feCmov (.loc 12) (.loc 10) (fun _ => !degenerate),
  feCmov (.loc 11) (.loc 7) (fun _ => !degenerate),
  feSqr (.loc 8) (.loc 11),
  feNegate (.loc 9) (.loc 5) (gejXMag + 1),
  feMul (.loc 9) (.loc 9) (.loc 8),
  feSqr (.loc 8) (.loc 8),
  feCmov (.loc 8) (.loc 7) (fun _ => degenerate),
  feSqr (.loc 5) (.loc 12)]

/-- The end, group_impl.h:824-856 -/
def gejAddGeM₃ (r a b : ℕ) : List (Stmt α) := [
  feMul (pz r) (pz a) (.loc 11),
  feAdd (.loc 5) (.loc 9),
  feCopy (px r) (.loc 5),
  feMulInt (.loc 5) 2,
  feAdd (.loc 5) (.loc 9),
  feMul (.loc 5) (.loc 5) (.loc 12),
  feAdd (.loc 5) (.loc 8),
  feNegate (py r) (.loc 5) (gejYMag + 2),
  feHalf (py r),
  feCmov (px r) (px b) (·.inf a),
  feCmov (py r) (py b) (·.inf a),
  feCmovOne (pz r) (·.inf a),
  setInf r (fun m => normalizesToZero (m.fe (pz r)))]

/-- `secp256k1_gej_add_ge(r, a, b)`, group_impl.h:724-859 -/
def gejAddGeM (r a b : ℕ) : Stmt α := fun m =>
  (run (gejAddGeM₁ a b) m).bind fun m =>
    run (gejAddGeM₂ (normalizesToZero (m.fe (.loc 7))) ++ gejAddGeM₃ r a b) m

/-- `secp256k1_gej_rescale(r, s)`, group_impl.h:861-875; local `zz` = 0 -/
def gejRescaleM (r : ℕ) (s : FePtr) : Stmt α := run [
  feSqr (.loc 0) s,
  feMul (px r) (px r) (.loc 0),
  feMul (py r) (py r) (.loc 0),
  feMul (py r) (py r) s,
  feMul (pz r) (pz r) s]

/-- `secp256k1_gej_cmov(r, a, flag)`, group_impl.h:898-908 -/
def gejCmovM (r a : ℕ) (flag : Bool) : Stmt α := run [
  feCmov (px r) (px a) (fun _ => flag),
  feCmov (py r) (py a) (fun _ => flag),
  feCmov (pz r) (pz a) (fun _ => flag),
  setInf r (fun m => m.inf r ^^ ((m.inf r ^^ m.inf a) && flag))]

/-- `secp256k1_ge_mul_lambda(r, a)`, group_impl.h:915-922; the constant `beta` is not in the memory. -/
def geMulLambdaM (beta : α) (r a : ℕ) : Stmt α := run [
  geCopy r a,
  fun m => some (m.wr (px r) (mul (m.fe (px r)) beta))]

/-- A call of one of the functions, with pointers to objects. -/
inductive MOp
  | double (r a : ℕ) | doubleVar (r a : ℕ) | addVar (r a b : ℕ) | addGeVar (r a b : ℕ) | addGe (r a b : ℕ)
  | gejNeg (r a : ℕ) | geNeg (r a : ℕ) | setGe (r a : ℕ) | setGej (r a : ℕ) | setGejVar (r a : ℕ)
  | gejCopy (r a : ℕ) | cmov (r a : ℕ) (flag : Bool)

/-- The statement of the call, with `rzr == NULL`. -/
def MOp.stmt : MOp → Stmt α
  | .double r a => gejDoubleM r a
  | .doubleVar r a => gejDoubleVarM r a none
  | .addVar r a b => gejAddVarM r a b none
  | .addGeVar r a b => gejAddGeVarM r a b none
  | .addGe r a b => gejAddGeM r a b
  | .gejNeg r a => gejNegM r a
  | .geNeg r a => geNegM r a
  | .setGe r a => gejSetGeM r a
  | .setGej r a => geSetGejM r a
  | .setGejVar r a => geSetGejVarM r a
  | .gejCopy r a => Mem.gejCopy r a
  | .cmov r a flag => gejCmovM r a flag

end Secp.Model.Mem
