import Verif.Proof.KeyApi

/-!
# Objects for the concrete cases beside the theorems
-/

namespace Secp
open Model Spec

/-- A live context, with the default comb table. -/
theorem exists_live : ∃ ctx : Ctx, LiveCtx ctx :=
  ⟨_, LiveCtx.create (junk := contextStatic comb86) (flags := 1) (Or.inr (Or.inr (Or.inl rfl))) rfl⟩

/-- The secret key 5. -/
def key5 : Bytes := beBytes 32 5
theorem key5_len : key5.length = 32 := by decide +kernel
theorem key5_val : beNat key5 = 5 := by decide +kernel
theorem key5_pos : 1 ≤ beNat key5 := by rw [key5_val]; omega
theorem key5_lt : beNat key5 < n := by decide +kernel

/-- The secret key 7. -/
def key7 : Bytes := beBytes 32 7
theorem key7_len : key7.length = 32 := by decide +kernel
theorem key7_val : beNat key7 = 7 := by decide +kernel
theorem key7_pos : 1 ≤ beNat key7 := by rw [key7_val]; omega
theorem key7_lt : beNat key7 < n := by decide +kernel

/-- A secret key that is too large, `n` itself. -/
def keyN : Bytes := beBytes 32 n
theorem keyN_len : keyN.length = 32 := by decide +kernel
theorem keyN_val : n ≤ beNat keyN := by decide +kernel

/-- A message. -/
def msg9 : Bytes := beBytes 32 9
theorem msg9_len : msg9.length = 32 := by decide +kernel

end Secp
