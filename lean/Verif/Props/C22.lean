import Verif.Props.C21

/-! # C22: ECDH rejects invalid secret keys -/

namespace Secp
open Model Spec

/-- For a zero or too large secret key the return value is 0, whatever the hash function does and
whatever the key object holds. -/
theorem C22_invalid_seckey (out point : Bytes) {a : Bytes} (ha : a.length = 32)
    (hbad : beNat a = 0 ∨ n ≤ beNat a) (h : Option EcdhHash) :
    (ecdh (some out) (some point) (some a) h).ret = 0 := by
  unfold ecdh
  simp only
  rw [ecdh_overflow, take32 ha, decide_eq_false (show ¬ (0 < beNat a ∧ beNat a < n) by omega)]
  simp [cInt]

/-- For a valid secret key and public key it returns 1 iff the hash function does not return 0. -/
theorem C22_valid_seckey {Q : Pt} (hQ : Q ≠ 0) (out : Bytes) {a : Bytes} (ha : a.length = 32)
    (h1 : 1 ≤ beNat a) (hn : beNat a < n) (h : EcdhHash) :
    let o := ecdh (some out) (some (keyObject Q)) (some a) (some h)
    let r := h out (beBytes 32 (ptX (beNat a • Q))) (beBytes 32 (ptY (beNat a • Q)))
    (o.ret = 1 ↔ r.1 ≠ 0) ∧ (o.ret = 0 ↔ r.1 = 0) ∧ o.illegal = 0 ∧ o.val = some r.2 := by
  rw [ecdh_valid hQ out ha h1 hn h]
  intro o r
  refine ⟨?_, ?_, rfl, rfl⟩ <;> simp only [o] <;> split_ifs <;> simp_all [r]

/-- The secret keys 0 and `n` are invalid, `n - 1` is valid. -/
example : beNat (beBytes 32 0) = 0 ∧ n ≤ beNat (beBytes 32 n) ∧ (beBytes 32 n).length = 32 ∧
    1 ≤ beNat (beBytes 32 (n - 1)) ∧ beNat (beBytes 32 (n - 1)) < n := by
  decide +kernel

end Secp
