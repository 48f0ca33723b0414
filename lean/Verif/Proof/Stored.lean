import Verif.Proof.EcmultLimb
import Verif.Proof.PreGenOk

/-!
# Every coordinate in the precomputed tables is a 256-bit number
-/

namespace Secp.Model

def storedAll (ll : List (List (ℕ × ℕ))) : Bool :=
  ll.all fun l => l.all fun s => Nat.blt s.1 (2 ^ 256) && Nat.blt s.2 (2 ^ 256)

theorem storedAll_getD {ll : List (List (ℕ × ℕ))} (h : storedAll ll = true) (i j : ℕ) :
    Stored ((ll.getD i []).getD j (0, 0)) := by
  have h0 : Stored (0, 0) := ⟨by norm_num, by norm_num⟩
  rw [List.getD_eq_getElem?_getD, List.getD_eq_getElem?_getD]
  cases e : ll[i]? with
  | none => simpa using h0
  | some l =>
    rw [Option.getD_some]
    cases e' : l[j]? with
    | none => exact h0
    | some s =>
      have h1 := List.all_eq_true.1 h _ (List.mem_of_getElem? e)
      have h2 := List.all_eq_true.1 h1 _ (List.mem_of_getElem? e')
      rw [Bool.and_eq_true, Nat.blt_eq, Nat.blt_eq] at h2
      exact h2

theorem preG_stored (i : ℕ) : Stored (preG i) :=
  storedAll_getD (ll := preGData) (by decide +kernel) _ _

theorem preG128_stored (i : ℕ) : Stored (preG128 i) :=
  storedAll_getD (ll := preG128Data) (by decide +kernel) _ _

theorem comb2_stored : CombStored comb2 := storedAll_getD (ll := PreGen.c2_5) (by decide +kernel)
theorem comb22_stored : CombStored comb22 := storedAll_getD (ll := PreGen.c11_6) (by decide +kernel)
theorem comb86_stored : CombStored comb86 := storedAll_getD (ll := PreGen.c43_6) (by decide +kernel)

end Secp.Model
