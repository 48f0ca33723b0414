import Verif.Model.LeakApi

/-!
# What it means that an observer learns nothing about the secrets

Two executions are compared.  Whatever is public is the same in both, whatever is secret may differ.
-/

namespace Secp.Leak

open Model (Ctx)

/-- An observer sees the same in both executions. -/
def LooksSame {α β : Type} (m : Ct α) (m' : Ct β) : Prop := m.trace = m'.trace

/-- An observer sees the same in both executions, unless the library declassifies different values: all
that the observer learns follows from the values that the library itself declares to be public. -/
def RevealsOnlyDeclassified {α β : Type} (m : Ct α) (m' : Ct β) : Prop :=
  declassified m.trace = declassified m'.trace → LooksSame m m'

/-- Both NULL, or both buffers of the same length. -/
def SameShape (a b : Option (List UInt8)) : Prop := a.map List.length = b.map List.length

/-- Two contexts built the same way; their blinding values may differ. -/
def SameKind (c c' : Ctx) : Prop := c.gen.cfg = c'.gen.cfg ∧ c.gen.built = c'.gen.built

/-- What is asked of a nonce function for ECDSA: an observer sees the same whatever the bytes of the
arguments are, and whether it fails does not depend on them. -/
def NonceFn.ConstTime (f : NonceFn) : Prop :=
  ∀ (i : Nat) (msg msg' key key' : List UInt8) (algo algo' data data' : Option (List UInt8))
    (attempt : UInt32), msg.length = msg'.length → key.length = key'.length → SameShape algo algo' →
    SameShape data data' →
    LooksSame (f i msg key algo data attempt) (f i msg' key' algo' data' attempt) ∧
      (f i msg key algo data attempt).val.map (fun r => decide (r.1 = 0)) =
        (f i msg' key' algo' data' attempt).val.map fun r => decide (r.1 = 0)

/-- What is asked of a nonce function for Schnorr signatures: an observer sees the same whatever the bytes
of the message, the key and the data are. -/
def NonceHardened.ConstTime (f : NonceHardened) : Prop :=
  ∀ (msg msg' key key' pk : List UInt8) (algo data data' : Option (List UInt8)),
    msg.length = msg'.length → key.length = key'.length → SameShape data data' →
    LooksSame (f msg key pk algo data) (f msg' key' pk algo data')

/-- What is asked of a hash function for ECDH: an observer sees the same whatever the bytes of the
coordinates are. -/
def EcdhHash.ConstTime (f : EcdhHash) : Prop :=
  ∀ out out' x x' y y' : List UInt8, out.length = out'.length → x.length = x'.length →
    y.length = y'.length → LooksSame (f out x y) (f out' x' y')

/-- What is asked of a hash function for the ElligatorSwift key exchange; the encodings are public. -/
def EllswiftHash.ConstTime (f : EllswiftHash) : Prop :=
  ∀ out out' x x' a b : List UInt8, out.length = out'.length → x.length = x'.length →
    LooksSame (f out x a b) (f out' x' a b)

/-- Two secret nonces of MuSig with the same public part: the magic bytes and the public key. -/
def SameSecnonce (a b : Option (List UInt8)) : Prop :=
  SameShape a b ∧ a.map (List.take 4) = b.map (List.take 4) ∧ a.map (List.drop 68) = b.map (List.drop 68)

end Secp.Leak
