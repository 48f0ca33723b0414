import Verif.Spec.Keys
import Verif.Spec.Sha256
import Verif.Proof.NatCurve

/-!
# Specification: x-only keys, keypairs and BIP-340 signatures
-/

namespace Secp.Spec

/-- The 32-byte strings that are BIP-340 public keys: `x < p` is the x coordinate of a curve point. -/
def XonlyValid (b : Bytes) : Prop := beNat b < p ∧ ∃ y : Fp, y ^ 2 = ((beNat b : ℕ) : Fp) ^ 3 + 7

/-- A keypair object that holds the secret key `d` and its public key. -/
def keypairObject (d : Fn) : Bytes := beBytes 32 d.val ++ keyObject (d.val • G)

/-- "BIP0340/challenge" in ASCII. -/
def challengeTag : Bytes :=
  [0x42, 0x49, 0x50, 0x30, 0x33, 0x34, 0x30, 0x2f, 0x63, 0x68, 0x61, 0x6c, 0x6c, 0x65, 0x6e, 0x67, 0x65]

/-- "BIP0340/aux" in ASCII. -/
def auxTag : Bytes := [0x42, 0x49, 0x50, 0x30, 0x33, 0x34, 0x30, 0x2f, 0x61, 0x75, 0x78]

/-- "BIP0340/nonce" in ASCII. -/
def nonceTag : Bytes := [0x42, 0x49, 0x50, 0x30, 0x33, 0x34, 0x30, 0x2f, 0x6e, 0x6f, 0x6e, 0x63, 0x65]

/-- BIP-340: `e = int(hash_BIP0340/challenge(r ‖ bytes(P) ‖ m)) mod n`. -/
def schnorrChallenge (r32 : Bytes) (P : Pt) (m : Bytes) : ℕ :=
  beNat (taggedHash challengeTag (r32 ++ xonly P ++ m)) % n

/-- BIP-340 verification of the 64 bytes `sig` on the message `m` under the even-y point `P`. -/
def SchnorrValid (P : Pt) (m sig : Bytes) : Prop :=
  let r := beNat (sig.take 32)
  let s := beNat (sig.drop 32)
  let R := s • G - schnorrChallenge (sig.take 32) P m • P
  r < p ∧ s < n ∧ R ≠ 0 ∧ ptY R % 2 = 0 ∧ ptX R = r

/-- BIP-340, default signing: the integer `rand` made from the secret key `d` (of the even-y point `P`),
the auxiliary random data and the message. -/
def schnorrRand (d : Fn) (P : Pt) (aux m : Bytes) : ℕ :=
  let t := List.zipWith (· ^^^ ·) (beBytes 32 d.val) (taggedHash auxTag aux)
  beNat (taggedHash nonceTag (t ++ xonly P ++ m))

/-- BIP-340, default signing, with the keys already adjusted: `d` and `k` are the secret keys of the
even-y points `P` and `R`. -/
def schnorrSig (d k : Fn) (m : Bytes) : Bytes :=
  let P := d.val • G
  let R := k.val • G
  xonly R ++ beBytes 32 (k + ((schnorrChallenge (xonly R) P m : ℕ) : Fn) * d).val

end Secp.Spec
