import Verif.Spec.Keys
import Verif.Proof.NatCurve

/-!
# Specification: ECDSA (SEC 1, section 4.1)

A 32-byte message hash stands for the integer it encodes, taken modulo `n`.
-/

namespace Secp.Spec

/-- The point `u₁G + u₂Q` with `u₁ = z/s`, `u₂ = r/s` (SEC 1, 4.1.4, steps 4 and 5). -/
noncomputable def ecdsaPoint (Q : Pt) (z r s : Fn) : Pt := (z / s).val • G + (r / s).val • Q

/-- `(r, s)` is a valid signature of `z` for the public key `Q` (SEC 1, 4.1.4). -/
def EcdsaValid (Q : Pt) (z r s : Fn) : Prop :=
  r ≠ 0 ∧ s ≠ 0 ∧ ecdsaPoint Q z r s ≠ 0 ∧ ptX (ecdsaPoint Q z r s) % n = r.val

/-- The scalar of a message hash. -/
def msgScalar (msg : Bytes) : Fn := ((beNat msg : ℕ) : Fn)

/-- The signature that the secret key `d` makes of `z` with the nonce `k`, before the sign of `s` is
chosen (SEC 1, 4.1.3): `r = x(kG) mod n` and `s = (z + r d)/k`. -/
noncomputable def ecdsaR (k : Fn) : Fn := ((ptX (k.val • G) : ℕ) : Fn)
noncomputable def ecdsaS (d z k : Fn) : Fn := (z + ecdsaR k * d) / k

/-- The one of `s` and `-s` that is at most `(n-1)/2`. -/
def lowS (s : Fn) : Fn := if 2 * s.val > n then -s else s

/-- The recovery id of the signature made with the nonce `k`: bit 1 says that the x coordinate of `kG`
is not below `n`, bit 0 is the parity of the y coordinate of the point whose x coordinate was used,
after the sign of `s` has been chosen. -/
noncomputable def ecdsaRecid (d z k : Fn) : ℕ :=
  (if n ≤ ptX (k.val • G) then 2 else 0) +
    (if 2 * (ecdsaS d z k).val > n then 1 - ptY (k.val • G) % 2 else ptY (k.val • G) % 2)

/-- `R` is the point that a recoverable signature `(r, s)` with recovery id `v` names (SEC 1, 4.1.6):
its x coordinate is `r`, or `r + n` if `v ≥ 2`, and its y coordinate is odd iff `v` is odd. -/
def RecoveryPoint (r : Fn) (v : ℕ) (R : Pt) : Prop :=
  R ≠ 0 ∧ ptX R = (if 2 ≤ v then r.val + n else r.val) ∧ ptY R % 2 = v % 2

/-- The key `r⁻¹ (s R - z G)` recovered from the point `R` (SEC 1, 4.1.6, step 1.6.1). -/
noncomputable def recoveredKey (R : Pt) (z r s : Fn) : Pt := (s / r).val • R - (z / r).val • G

/-- A recoverable signature object that holds `r`, `s` and `v`. -/
def recObject (r s : Fn) (v : ℕ) : Bytes := sigObject r s ++ [UInt8.ofNat v]

/-- The outcome of one call of a nonce function: return value and the 32 bytes written. -/
abbrev NonceCall := Option (Int × Bytes)

/-- The call produced a number in `[1, n-1]` that gives a signature with `r ≠ 0` and `s ≠ 0`. -/
def NonceUsable (d z : Fn) (c : NonceCall) (k : ℕ) : Prop :=
  ∃ ret b, c = some (ret, b) ∧ ret ≠ 0 ∧ beNat (b.take 32) = k ∧ 1 ≤ k ∧ k < n ∧
    ecdsaR k ≠ 0 ∧ ecdsaS d z k ≠ 0

/-- The call reported failure. -/
def NonceFailed (c : NonceCall) : Prop := ∃ b, c = some (0, b)

/-- The call reported success but its number cannot be used. -/
def NonceSkipped (d z : Fn) (c : NonceCall) : Prop :=
  ∃ ret b, c = some (ret, b) ∧ ret ≠ 0 ∧ ¬ ∃ k, NonceUsable d z c k

end Secp.Spec
