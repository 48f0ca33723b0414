import Verif.Spec.Bytes
import Mathlib.Data.Int.Init

/-!
# Specification: DER encoding (ITU-T X.690) of an ECDSA signature

`SEQUENCE { r INTEGER, s INTEGER }`.  Every predicate relates octets to the value they encode.
-/

namespace Secp.Spec

/-- Length octets (X.690 8.1.3 with 10.1): definite form in the minimal number of octets.  The first
octet of the long form is never 255. -/
def DerLength (o : Bytes) (len : ℕ) : Prop :=
  (len < 128 ∧ o = [UInt8.ofNat len]) ∨
  (128 ≤ len ∧ ∃ c : Bytes, c.length < 127 ∧ c.headD 0 ≠ 0 ∧
    o = UInt8.ofNat (128 + c.length) :: c ∧ beNat c = len)

/-- The value of contents octets of an INTEGER: two's complement, big endian (X.690 8.3.3). -/
def twosComplement (c : Bytes) : ℤ :=
  if (c.headD 0).toNat ≥ 128 then (beNat c : ℤ) - 256 ^ c.length else beNat c

/-- Contents octets of an INTEGER (X.690 8.3.1, 8.3.2): at least one octet; the first nine bits are
not all zero and not all one. -/
def DerMinimal (c : Bytes) : Prop :=
  c ≠ [] ∧ ∀ a b t, c = a :: b :: t →
    ¬ (a.toNat = 0 ∧ b.toNat < 128) ∧ ¬ (a.toNat = 255 ∧ b.toNat ≥ 128)

/-- An INTEGER: tag 2, length, contents. -/
def DerInteger (o : Bytes) (z : ℤ) : Prop :=
  ∃ l c, DerLength l c.length ∧ DerMinimal c ∧ twosComplement c = z ∧ o = 2 :: (l ++ c)

/-- The SEQUENCE (tag 0x30) of two INTEGERs, and nothing behind it. -/
def DerSignature (o : Bytes) (r s : ℤ) : Prop :=
  ∃ l a b, DerInteger a r ∧ DerInteger b s ∧ DerLength l (a ++ b).length ∧
    o = 0x30 :: (l ++ (a ++ b))

end Secp.Spec
