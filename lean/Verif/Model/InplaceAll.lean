import Verif.Model.Inplace

/-!
# The loops of the group code on memory

`secp256k1_ge_set_all_gej`, `secp256k1_ge_set_all_gej_var` and `secp256k1_ge_table_set_globalz`
(`/repo/src/group_impl.h`) and `secp256k1_ecmult_odd_multiples_table` (`/repo/src/ecmult_impl.h`).  An array
of points is a run of objects `a, a + 1, …`; an array of field elements is a run of objects of which only
the `x` is used.  The index variables of C are not in the memory.
-/

namespace Secp.Model.Mem

open FeOps

variable {α : Type} [FeOps α]

/-- The loop at group_impl.h:214-216, for `i` from `i` on, `k` times -/
def allForwardM (r a : ℕ) : ℕ → ℕ → Stmt α
  | _, 0 => some
  | i, k + 1 => fun m => (feMul (px (r + i)) (px (r + (i - 1))) (pz (a + i)) m).bind (allForwardM r a (i + 1) k)

/-- The loop at group_impl.h:219-222, for `i` down to 1; `u` is the local variable 2 -/
def allBackwardM (r a : ℕ) : ℕ → Stmt α
  | 0 => some
  | i + 1 => fun m => (run [
      feMul (px (r + (i + 1))) (px (r + i)) (.loc 2),
      feMul (.loc 2) (.loc 2) (pz (a + (i + 1)))] m).bind (allBackwardM r a i)

/-- The loop at group_impl.h:225-227, for `i` from `i` on, `k` times -/
def allZinvM (r a : ℕ) : ℕ → ℕ → Stmt α
  | _, 0 => some
  | i, k + 1 => fun m => (geSetGejZinvM (r + i) (a + i) (px (r + i)) m).bind (allZinvM r a (i + 1) k)

/-- `secp256k1_ge_set_all_gej(r, a, len)`, group_impl.h:198-234 -/
def geSetAllGejM (r a : ℕ) : ℕ → Stmt α
  | 0 => some
  | len + 1 => run [
      feCopy (px r) (pz a),
      allForwardM r a 1 len,
      feInv (.loc 2) (px (r + len)),
      allBackwardM r a len,
      feCopy (px r) (.loc 2),
      allZinvM r a 0 (len + 1)]

/-- group_impl.h:251-255: the product of the `z` up to `i` goes to `r[i].x` -/
def allVarStoreM (r a i : ℕ) : Option ℕ → Stmt α
  | none => feCopy (px (r + i)) (pz (a + i))
  | some l => feMul (px (r + i)) (px (r + l)) (pz (a + i))

/-- The loop at group_impl.h:246-258, for `i` from `i` on, `k` times, with `last_i` (`none` is
`SIZE_MAX`): the memory and `last_i` after it -/
def allVarForwardM (r a : ℕ) : ℕ → ℕ → Option ℕ → Mem α → Option (Mem α × Option ℕ)
  | _, 0, last, m => some (m, last)
  | i, k + 1, last, m =>
    if m.inf (a + i) then
      (geSetInfinityM (r + i) m).bind fun m => allVarForwardM r a (i + 1) k last m
    else
      (allVarStoreM r a i last m).bind fun m => allVarForwardM r a (i + 1) k (some i) m

/-- The loop at group_impl.h:265-272, for `i` down from `i - 1`, and the store after it (line 274); `u` is
the local variable 2 -/
def allVarBackwardM (r a : ℕ) : ℕ → ℕ → Stmt α
  | 0, last => feCopy (px (r + last)) (.loc 2)
  | i + 1, last => fun m =>
    if m.inf (a + i) then allVarBackwardM r a i last m
    else (run [
      feMul (px (r + last)) (px (r + i)) (.loc 2),
      feMul (.loc 2) (.loc 2) (pz (a + last))] m).bind (allVarBackwardM r a i i)

/-- The loop at group_impl.h:276-280, for `i` from `i` on, `k` times -/
def allVarZinvM (r a : ℕ) : ℕ → ℕ → Stmt α
  | _, 0 => some
  | i, k + 1 => fun m =>
    if m.inf (a + i) then allVarZinvM r a (i + 1) k m
    else (geSetGejZinvM (r + i) (a + i) (px (r + i)) m).bind (allVarZinvM r a (i + 1) k)

/-- `secp256k1_ge_set_all_gej_var(r, a, len)`, group_impl.h:236-287 -/
def geSetAllGejVarM (r a len : ℕ) : Stmt α := fun m =>
  (allVarForwardM r a 0 len none m).bind fun s =>
    match s.2 with
    | none => some s.1
    | some last => run [
        feInvVar (.loc 2) (px (r + last)),
        allVarBackwardM r a last last,
        allVarZinvM r a 0 len] s.1

/-- The loop at group_impl.h:306-312, at `i`; `zs` is the local variable 2 and `zr` is an array of field
elements -/
def globalzLoopM (len a zr : ℕ) : ℕ → Stmt α
  | 0 => some
  | i + 1 => fun m =>
    ((if i + 1 ≠ len - 1 then feMul (.loc 2) (.loc 2) (px (zr + (i + 1))) else some) m).bind fun m =>
      (geSetGeZinvM (a + i) (a + i) (.loc 2) m).bind (globalzLoopM len a zr i)

/-- `secp256k1_ge_table_set_globalz(len, a, zr)`, group_impl.h:289-320 -/
def tableSetGlobalzM (len a zr : ℕ) : Stmt α :=
  if len > 0 then run [
    feNormalizeWeak (py (a + (len - 1))),
    feCopy (.loc 2) (px (zr + (len - 1))),
    globalzLoopM len a zr (len - 1)]
  else some

/-- The loop at ecmult_impl.h:105-108, for `i` from `i` on, `k` times; `ai` and `d_ge` are local objects -/
def oddMultiplesLoopM (pre zr ai dge : ℕ) : ℕ → ℕ → Stmt α
  | _, 0 => some
  | i, k + 1 => fun m => (run [
      gejAddGeVarM ai ai dge (some (px (zr + i))),
      geSetXYM (pre + i) (px ai) (py ai)] m).bind (oddMultiplesLoopM pre zr ai dge (i + 1) k)

/-- `secp256k1_ecmult_odd_multiples_table(n, pre_a, zr, z, a)`, ecmult_impl.h:73-115; the local objects `d`,
`ai`, `d_ge` are parameters -/
def oddMultiplesTableM (n pre zr : ℕ) (z : FePtr) (a d ai dge : ℕ) : Stmt α := run [
  gejDoubleVarM d a none,
  geSetXYM dge (px d) (py d),
  geSetGejZinvM pre a (pz d),
  gejSetGeM ai pre,
  feCopy (pz ai) (pz a),
  feCopy (px zr) (pz d),
  oddMultiplesLoopM pre zr ai dge 1 (n - 1),
  feMul z (pz ai) (pz d)]

end Secp.Model.Mem
