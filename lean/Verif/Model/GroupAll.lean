import Verif.Model.GroupX

/-!
# Model of the batch conversions of `/repo/src/group_impl.h`

The destination's x coordinates are used as scratch space; here they are a separate list
(C78 is about the arrays in memory).
-/

namespace Secp.Model

open FeOps

variable {α : Type} [FeOps α]

/-- The loop at group_impl.h:214-216, from the product `prod` on. -/
def allGejForward : α → List (Gej α) → List α
  | _, [] => []
  | prod, a :: rest => mul prod a.z :: allGejForward (mul prod a.z) rest

/-- The loop at group_impl.h:219-223, downwards: the list of pairs `(r[i].x, a[i])` is reversed, the
result is in the order of the array. -/
def allGejBackward : List (α × Gej α) → α → List α → List α
  | [], _, acc => acc
  | [_], u, acc => u :: acc
  | (_, a) :: (x', a') :: rest, u, acc =>
    allGejBackward ((x', a') :: rest) (mul u a.z) (mul x' u :: acc)

/-- `secp256k1_ge_set_all_gej`, group_impl.h:198-234 -/
def geSetAllGej (a : List (Gej α)) : List (Ge α) :=
  match a with
  | [] => []
  | a0 :: rest =>
    let xs := a0.z :: allGejForward a0.z rest
    let u := inv (xs.getLastD (setInt 0))
    let zi := allGejBackward (xs.zip (a0 :: rest)).reverse u []
    List.zipWith (fun a zi => geSetGejZinv a zi) (a0 :: rest) zi

/-- The loop at group_impl.h:246-258; `last` is `r[last_i].x`, `none` if there is no `last_i` yet.
An entry at infinity is not used as scratch space; it reads 0 here. -/
def allVarForward : Option α → List (Gej α) → List α × Option α
  | last, [] => ([], last)
  | last, a :: rest =>
    if a.infinity then
      let r := allVarForward last rest
      (setInt 0 :: r.1, r.2)
    else
      let x := match last with
        | none => a.z
        | some l => mul l a.z
      let r := allVarForward (some x) rest
      (x :: r.1, r.2)

/-- The loop at group_impl.h:264-274, downwards from `last_i` (whose z coordinate is `lastZ`) through
the reversed list of the pairs `(a[i], r[i].x)` below it: `r[last_i].x`, and the entries below. -/
def allVarBackward (lastZ u : α) : List (Gej α × α) → α × List α
  | [] => (u, [])
  | (a, x) :: rest =>
    if a.infinity then
      let r := allVarBackward lastZ u rest
      (r.1, setInt 0 :: r.2)
    else
      let r := allVarBackward a.z (mul u lastZ) rest
      (mul x u, r.1 :: r.2)

/-- group_impl.h:259-274 on the reversed list: the entries behind `last_i` are at infinity. -/
def allVarInverses (u : α) : List (Gej α × α) → List α
  | [] => []
  | (a, _) :: rest =>
    if a.infinity then setInt 0 :: allVarInverses u rest
    else
      let r := allVarBackward a.z u rest
      r.1 :: r.2

/-- `secp256k1_ge_set_all_gej_var`, group_impl.h:236-287 -/
def geSetAllGejVar (a : List (Gej α)) : List (Ge α) :=
  let f := allVarForward none a
  match f.2 with
  | none => a.map fun _ => geInfinity
  | some l =>
    let zi := (allVarInverses (invVar l) (a.zip f.1).reverse).reverse
    List.zipWith (fun a zi => if a.infinity then geInfinity else geSetGejZinv a zi) a zi

end Secp.Model
