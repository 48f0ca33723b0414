import Verif.Spec.Schnorr

/-!
# Specification: MuSig2 (BIP-327)
-/

namespace Secp.Spec

/-- "KeyAgg list" in ASCII. -/
def keyaggListTag : Bytes := [0x4b, 0x65, 0x79, 0x41, 0x67, 0x67, 0x20, 0x6c, 0x69, 0x73, 0x74]

/-- "KeyAgg coefficient" in ASCII. -/
def keyaggCoefTag : Bytes :=
  [0x4b, 0x65, 0x79, 0x41, 0x67, 0x67, 0x20, 0x63, 0x6f, 0x65, 0x66, 0x66, 0x69, 0x63, 0x69, 0x65, 0x6e,
    0x74]

/-- "MuSig/aux" in ASCII. -/
def musigAuxTag : Bytes := [0x4d, 0x75, 0x53, 0x69, 0x67, 0x2f, 0x61, 0x75, 0x78]

/-- "MuSig/nonce" in ASCII. -/
def musigNonceTag : Bytes := [0x4d, 0x75, 0x53, 0x69, 0x67, 0x2f, 0x6e, 0x6f, 0x6e, 0x63, 0x65]

/-- "MuSig/noncecoef" in ASCII. -/
def noncecoefTag : Bytes :=
  [0x4d, 0x75, 0x53, 0x69, 0x67, 0x2f, 0x6e, 0x6f, 0x6e, 0x63, 0x65, 0x63, 0x6f, 0x65, 0x66]

/-! ### Key aggregation -/

/-- BIP-327, HashKeys: the hash of the list of (compressed) public keys. -/
def keysHash (Ps : List Pt) : Bytes := taggedHash keyaggListTag (Ps.flatMap compressed)

/-- BIP-327, GetSecondKey: the first key that differs from the first one, infinity if there is none. -/
def secondKey (Ps : List Pt) : Pt := (Ps.find? fun P => P ≠ Ps.headD 0).getD 0

/-- BIP-327, KeyAggCoeff: the coefficient of the key `P` in the list `Ps`. -/
def keyCoef (Ps : List Pt) (P : Pt) : Fn :=
  if P = secondKey Ps then 1
  else ((beNat (taggedHash keyaggCoefTag (keysHash Ps ++ compressed P)) : ℕ) : Fn)

/-- BIP-327, KeyAgg: the sum of the keys with their coefficients. -/
def aggPoint (Ps : List Pt) : Pt := (Ps.map fun P => (keyCoef Ps P).val • P).sum

/-- BIP-327, the key aggregation context. -/
structure KeyaggCtx where
  Q : Pt
  gacc : Fn
  tacc : Fn

/-- BIP-327, KeyAgg: the context before any tweak. -/
def keyaggInit (Ps : List Pt) : KeyaggCtx := ⟨aggPoint Ps, 1, 0⟩

/-- `-1` for a point with an odd y coordinate, else `1`. -/
def signY (P : Pt) : Fn := if ptY P % 2 = 1 then -1 else 1

/-- BIP-327, ApplyTweak: `none` if the tweak is out of range or the result is infinite. -/
def applyTweak (c : KeyaggCtx) (xonlyTweak : Bool) (tweak : Bytes) : Option KeyaggCtx :=
  let t := beNat tweak
  let g : Fn := if xonlyTweak then signY c.Q else 1
  let Q' := g.val • c.Q + t • G
  if t < n ∧ Q' ≠ 0 then some ⟨Q', g * c.gacc, (t : Fn) + g * c.tacc⟩ else none

/-- A sequence of tweaks, from the key list on. -/
def tweakSeq (Ps : List Pt) (tweaks : List (Bool × Bytes)) : Option KeyaggCtx :=
  tweaks.foldlM (fun c t => applyTweak c t.1 t.2) (keyaggInit Ps)

/-- The key aggregation cache object for the keys `Ps` and the context `c`. -/
def cacheObject (Ps : List Pt) (c : KeyaggCtx) : Bytes :=
  [0xf4, 0xad, 0xbb, 0xdf] ++ keyObject c.Q ++ keyObject (secondKey Ps) ++ keysHash Ps ++
    [if c.gacc = 1 then 0 else 1] ++ beBytes 32 c.tacc.val

/-! ### Nonces -/

/-- BIP-327, cbytes_ext: 33 zero bytes stand for infinity. -/
def compressedExt (P : Pt) : Bytes := if P = 0 then List.replicate 33 0 else compressed P

/-- A secret nonce object. -/
def secnonceObject (k₁ k₂ : Fn) (P : Pt) : Bytes :=
  [0x22, 0x0e, 0xdc, 0xf1] ++ beBytes 32 k₁.val ++ beBytes 32 k₂.val ++ keyObject P

/-- A public nonce object. -/
def pubnonceObject (R₁ R₂ : Pt) : Bytes := [0xf5, 0x7a, 0x3d, 0xa0] ++ keyObject R₁ ++ keyObject R₂

/-- An aggregate nonce object; each of the points may be infinity. -/
def aggnonceObject (R₁ R₂ : Pt) : Bytes := [0xa8, 0xb7, 0xe4, 0x67] ++ keyObject R₁ ++ keyObject R₂

/-- BIP-327, NonceGen: the randomness, masked with the secret key if there is one. -/
def musigMask (rand : Bytes) : Option Bytes → Bytes
  | some sk => List.zipWith (· ^^^ ·) sk (taggedHash musigAuxTag rand)
  | none => rand

/-- BIP-327, NonceGen: the input of the nonce hash, that is the masked randomness `rand`, the public key,
the aggregate key, the message, the extra input and the index, with their length prefixes. -/
def musigNonceInput (rand : Bytes) (P : Pt) (aggpk msg extra : Option Bytes) (i : UInt8) : Bytes :=
  let agg := match aggpk with
    | some a => 32 :: a
    | none => [0]
  let m := match msg with
    | some m => 1 :: (beBytes 8 32 ++ m)
    | none => [0]
  let ex := match extra with
    | some e => beBytes 4 32 ++ e
    | none => beBytes 4 0
  rand ++ (33 :: compressed P) ++ agg ++ m ++ ex ++ [i]

/-- BIP-327, NonceGen: the secret nonces, for `i = 0` and `i = 1`. -/
def musigNonce (rand : Bytes) (seckey : Option Bytes) (P : Pt) (aggpk msg extra : Option Bytes)
    (i : UInt8) : Fn :=
  ((beNat (taggedHash musigNonceTag (musigNonceInput (musigMask rand seckey) P aggpk msg extra i)) : ℕ) : Fn)

/-! ### Sessions -/

/-- BIP-327, GetSessionValues: the nonce coefficient. -/
def nonceCoef (R₁ R₂ Q : Pt) (m : Bytes) : Fn :=
  ((beNat (taggedHash noncecoefTag (compressedExt R₁ ++ compressedExt R₂ ++ xonly Q ++ m)) : ℕ) : Fn)

/-- BIP-327, GetSessionValues: the final nonce, with `G` in place of infinity. -/
def finalNonce (R₁ R₂ Q : Pt) (m : Bytes) : Pt :=
  let R := R₁ + (nonceCoef R₁ R₂ Q m).val • R₂
  if R = 0 then G else R

/-- BIP-327, GetSessionValues: the challenge. -/
def musigChallenge (R₁ R₂ Q : Pt) (m : Bytes) : Fn :=
  ((schnorrChallenge (xonly (finalNonce R₁ R₂ Q m)) Q m : ℕ) : Fn)

/-- A session object. -/
def sessionObject (parity : UInt8) (r : Bytes) (b e s : Fn) : Bytes :=
  [0x9d, 0xed, 0xe9, 0x17] ++ [parity] ++ r ++ beBytes 32 b.val ++ beBytes 32 e.val ++ beBytes 32 s.val

/-- The session object for the aggregate nonce `(R₁, R₂)`, the key context `c` and the message `m`: parity
and x coordinate of the final nonce, nonce coefficient, challenge, and the share `e g tacc` of the tweaks
in the signature. -/
def sessionFor (R₁ R₂ : Pt) (c : KeyaggCtx) (m : Bytes) : Bytes :=
  sessionObject (UInt8.ofNat (ptY (finalNonce R₁ R₂ c.Q m) % 2)) (xonly (finalNonce R₁ R₂ c.Q m))
    (nonceCoef R₁ R₂ c.Q m) (musigChallenge R₁ R₂ c.Q m)
    (musigChallenge R₁ R₂ c.Q m * (signY c.Q * c.tacc))

/-- The sign for the parity byte of the final nonce. -/
def paritySign (parity : UInt8) : Fn := if parity = 0 then 1 else -1

/-- BIP-327, Sign: the partial signature of the secret key `d` with the nonces `k₁`, `k₂`, in a session
with nonce parity, nonce coefficient `b` and challenge `e`. -/
def partialValue (Ps : List Pt) (c : KeyaggCtx) (parity : UInt8) (b e d k₁ k₂ : Fn) : Fn :=
  paritySign parity * (k₁ + b * k₂) + e * keyCoef Ps (d.val • G) * (signY c.Q * c.gacc) * d

/-- A partial signature object. -/
def partialSigObject (s : Fn) : Bytes := [0xeb, 0xfb, 0x1a, 0x32] ++ beBytes 32 s.val

end Secp.Spec
