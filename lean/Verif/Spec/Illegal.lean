import Verif.Model.Out
import Verif.Spec.Keys

/-!
# Specification: how a call reports illegal arguments
-/

namespace Secp.Spec

/-- The caller's buffer before and after a call: every byte is untouched or zero (a NULL pointer stays
NULL). -/
def Kept : Option Bytes → Option Bytes → Prop
  | none, none => True
  | some a, some b => ∀ i, b.getD i 0 = a.getD i 0 ∨ b.getD i 0 = 0
  | _, _ => False

/-- The same for an integer the function writes. -/
def KeptNum {α : Type} [Zero α] : Option α → Option α → Prop
  | none, none => True
  | some a, some b => b = a ∨ b = 0
  | _, _ => False

/-- If the arguments are `bad`, the illegal-argument callback is called exactly once, the call returns 0
and the memory it writes satisfies `keep`.  Otherwise the callback is not called. -/
def Reports {α : Type} (bad : Prop) (keep : α → Prop) (o : Out α) : Prop :=
  (bad ∧ o.illegal = 1 ∧ o.ret = 0 ∧ keep o.val) ∨ (¬ bad ∧ o.illegal = 0)

/-- The same for a function with a loop that may go on forever (`none`): with bad arguments it does not
enter the loop. -/
def ReportsLoop {α : Type} (bad : Prop) (keep : α → Prop) (o : Option (Out α)) : Prop :=
  (bad ∧ ∃ r, o = some r ∧ r.illegal = 1 ∧ r.ret = 0 ∧ keep r.val) ∨
    (¬ bad ∧ ∀ r, o = some r → r.illegal = 0)

/-- A public key object without a key in it: the x coordinate, its first 32 bytes, is zero. -/
def NoKey (b : Bytes) : Prop := leNat (b.take 32) = 0

/-- A keypair object without keys in it: its secret key (the first 32 bytes, big endian) is not in
`1 … n-1`, or its public key is missing. -/
def NoKeypair (b : Bytes) : Prop :=
  beNat (b.take 32) = 0 ∨ n ≤ beNat (b.take 32) ∨ NoKey (b.drop 32)

/-- An object whose first four bytes are not the given magic. -/
def WrongMagic (magic b : Bytes) : Prop := ∃ i < 4, b.getD i 0 ≠ magic.getD i 0

end Secp.Spec
