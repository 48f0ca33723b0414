import Verif.Spec.Keys
import Verif.Proof.NatCurve
import Verif.Spec.Der

/-!
# Specification: "lax DER" signatures and exported private keys

The header of `contrib/lax_der_parsing.h` lists the violations of DER that are accepted; the
predicates below are DER without those rules.
-/

namespace Secp.Spec

/-- The length octets of the sequence: one octet below 128, or 128 plus a number and that many octets.
Their value is ignored. -/
def LaxHeader (o : Bytes) : Prop :=
  (∃ b : UInt8, b.toNat < 128 ∧ o = [b]) ∨
    ∃ c : Bytes, c.length < 128 ∧ o = UInt8.ofNat (128 + c.length) :: c

/-- The length octets of an integer: as above, not necessarily in the minimal number of octets.  `W` is
the number of bytes in a `size_t`: lengths of `256^(W-1)` and more are not accepted. -/
def LaxLength (W : ℕ) (o : Bytes) (len : ℕ) : Prop :=
  (len < 128 ∧ o = [UInt8.ofNat len]) ∨
    (len < 256 ^ (W - 1) ∧ ∃ c : Bytes, c.length < 128 ∧ o = UInt8.ofNat (128 + c.length) :: c ∧
      beNat c = len)

/-- A sequence of two nonnegative integers in any number of octets, including none, with anything
behind them. -/
def LaxSignature (W : ℕ) (o : Bytes) (r s : ℕ) : Prop :=
  ∃ h lr cr ls cs rest, LaxHeader h ∧ LaxLength W lr cr.length ∧ LaxLength W ls cs.length ∧
    o = 0x30 :: (h ++ 2 :: (lr ++ (cr ++ 2 :: (ls ++ (cs ++ rest))))) ∧ beNat cr = r ∧ beNat cs = s

/-- Tag, minimal length octets (up to 65535), contents. -/
def tlv (tag : UInt8) (c : Bytes) : Bytes :=
  tag :: ((if c.length < 128 then [UInt8.ofNat c.length]
    else if c.length < 256 then [0x81, UInt8.ofNat c.length]
    else [0x82, UInt8.ofNat (c.length / 256), UInt8.ofNat (c.length % 256)]) ++ c)

/-- `ECPrivateKey` of SEC 1, appendix C.4, with explicit parameters of the curve (C.2): version 1, the
secret key, `[0]` the parameters (version 1; prime field, `p`; `a = 0`, `b = 7`; the generator; `n`;
cofactor 1), `[1]` the public key as a bit string.  `enc` encodes points. -/
noncomputable def ecPrivateKey (enc : Pt → Bytes) (seckey : Bytes) : Bytes :=
  tlv 0x30 (
    tlv 0x02 [1] ++
    tlv 0x04 seckey ++
    tlv 0xA0 (tlv 0x30 (
      tlv 0x02 [1] ++
      tlv 0x30 (tlv 0x06 [0x2A, 0x86, 0x48, 0xCE, 0x3D, 0x01, 0x01] ++ tlv 0x02 (0 :: beBytes 32 p)) ++
      tlv 0x30 (tlv 0x04 [0] ++ tlv 0x04 [7]) ++
      tlv 0x04 (enc G) ++
      tlv 0x02 (0 :: beBytes 32 n) ++
      tlv 0x02 [1])) ++
    tlv 0xA1 (tlv 0x03 (0 :: enc (beNat seckey • G))))

/-- What the import function accepts: a sequence whose length is written in one or two octets after
0x81 or 0x82 and fits into the input, then version 1, then an octet string of at most 32 octets.
Nothing else is looked at. -/
def LaxPrivateKey (o key : Bytes) : Prop :=
  ∃ l rest : Bytes, (l.length = 1 ∨ l.length = 2) ∧ key.length ≤ 32 ∧
    beNat l ≤ ([2, 1, 1, 4, UInt8.ofNat key.length] ++ key ++ rest).length ∧
    o = 0x30 :: UInt8.ofNat (0x80 + l.length) ::
      (l ++ ([2, 1, 1, 4, UInt8.ofNat key.length] ++ key ++ rest))

end Secp.Spec
