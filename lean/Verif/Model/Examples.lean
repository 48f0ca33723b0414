import Verif.Model.ApiEcdsa
import Verif.Model.Context
import Verif.Model.Ellswift
import Verif.Model.Hsort
import Verif.Model.MusigSession
import Verif.Model.TaggedSha

/-!
# Model of the example programs, `/repo/examples/*.c`

The example programs show the intended use of the library.  What `fill_random` (examples_util.h:41-70)
delivers is an argument of the model: `none` if it fails.  Objects on the stack are uninitialised at first:
`u i k` is the content of the `i`-th such object, of `k` bytes.  The illegal-argument callback is the default
one, which ends the program.  `printf` and `secure_erase` are left out; the values that are printed are the
result of the model.
-/

namespace Secp.Model

/-- How a program ends before its last statement. -/
inductive End where
  /-- `return EXIT_FAILURE` -/
  | exitFailure
  /-- `assert` fails. -/
  | assertion
  /-- The default illegal-argument callback calls `abort`, util.h:112-115. -/
  | illegal
  /-- Undefined behaviour. -/
  | undefined
  /-- A call has not returned within the given number of rounds of its loop. -/
  | running
  deriving DecidableEq

/-- Part of a program. -/
abbrev Run (α : Type) := Except End α

/-- `if (!fill_random(…)) return EXIT_FAILURE;` -/
def fillRandom : Option (List UInt8) → Run (List UInt8)
  | some b => .ok b
  | none => .error .exitFailure

/-- A call of an API function with the default illegal-argument callback. -/
def call {α : Type} (o : Out α) : Run (Int × α) :=
  if o.illegal = 0 then .ok (o.ret, o.val) else .error .illegal

/-- A call of a function with a loop that need not end. -/
def callLoop {α : Type} : Option (Out α) → Run (Int × α)
  | some o => call o
  | none => .error .running

/-- A call of a function that may run into undefined behaviour. -/
def callMem {α : Type} : Option (Out α) → Run (Int × α)
  | some o => call o
  | none => .error .undefined

/-- `assert(b)` -/
def assertThat (b : Bool) : Run Unit := if b then .ok () else .error .assertion

/-- `if (!ret) return EXIT_FAILURE;` -/
def orExit (ret : Int) : Run Unit := if ret ≠ 0 then .ok () else .error .exitFailure

/-- `secp256k1_context_create(SECP256K1_CONTEXT_NONE)`; the use of NULL as a context is undefined. -/
def newContext (junk : Ctx) : Run Ctx := do
  let r ← call (contextCreate junk flagsTypeContext)
  match r.2 with
  | some ctx => .ok ctx
  | none => .error .undefined

/-- The context with its randomization, e.g. ecdsa.c:39-49 -/
def newRandomized (junk : Ctx) (randomize : Option (List UInt8)) : Run Ctx := do
  let ctx ← newContext junk
  let randomize ← fillRandom randomize
  let r ← call (contextRandomize ctx (some randomize))
  assertThat (r.1 ≠ 0)
  return r.2

/-- The hash that is signed, ecdsa.c:25-30 -/
def exampleMsgHash : List UInt8 :=
  [0x31, 0x5F, 0x5B, 0xDB, 0x76, 0xD0, 0x78, 0xC4, 0x3B, 0x8A, 0xC0, 0x06, 0x4E, 0x4A, 0x01, 0x64,
   0x61, 0x2B, 0x1F, 0xCE, 0x77, 0xC8, 0x69, 0x34, 0x5B, 0xFC, 0x94, 0xC7, 0x58, 0x94, 0xED, 0xD3]

/-- What ecdsa.c and schnorr.c print: `is_signature_valid`, the secret key, the serialized public key and
the signature. -/
structure SigPrinted where
  valid : Int
  seckey : List UInt8
  pubkey : List UInt8
  signature : List UInt8

/-- `main` of ecdsa.c:19-138 -/
def exampleEcdsa (fuel : Nat) (junk : Ctx) (u : Nat → Nat → List UInt8)
    (randomize seckey : Option (List UInt8)) : Run SigPrinted := do
  let ctx ← newRandomized junk randomize
  let seckey ← fillRandom seckey
  let r ← call (ecSeckeyVerify (some seckey))
  orExit r.1
  let r ← call (ecPubkeyCreate ctx (some (u 0 64)) (some seckey))
  assertThat (r.1 ≠ 0)
  let pubkey := r.2
  let r ← call (ecPubkeySerialize (some (u 1 33)) (some 33) pubkey ecCompressed)
  assertThat (r.1 ≠ 0)
  let compressedPubkey := r.2.1
  assertThat (r.2.2 = some 33)
  let r ← callLoop (ecdsaSign fuel ctx (some (u 2 64)) (some exampleMsgHash) (some seckey) none none)
  assertThat (r.1 ≠ 0)
  let sig := r.2
  let r ← call (ecdsaSignatureSerializeCompact (some (u 3 64)) sig)
  assertThat (r.1 ≠ 0)
  let serialized := r.2
  let r ← call (ecdsaSignatureParseCompact sig serialized)
  orExit r.1
  let sig := r.2
  let r ← call (ecPubkeyParse pubkey compressedPubkey)
  orExit r.1
  let pubkey := r.2
  let valid ← call (ecdsaVerify sig (some exampleMsgHash) pubkey)
  let _ ← call (contextDestroy ctx)
  let valid2 ← call (ecdsaVerify sig (some exampleMsgHash) pubkey)
  assertThat (valid2.1 = valid.1)
  return ⟨valid.1, seckey, compressedPubkey.getD [], serialized.getD []⟩

/-- What ecdh.c and ellswift.c print: secret keys, public keys and the shared secret. -/
structure SharedPrinted where
  seckey1 : List UInt8
  pubkey1 : List UInt8
  seckey2 : List UInt8
  pubkey2 : List UInt8
  sharedSecret : List UInt8

/-- `main` of ecdh.c:20-121 -/
def exampleEcdh (junk : Ctx) (u : Nat → Nat → List UInt8)
    (randomize seckey1 seckey2 : Option (List UInt8)) : Run SharedPrinted := do
  let ctx ← newRandomized junk randomize
  let seckey1 ← fillRandom seckey1
  let seckey2 ← fillRandom seckey2
  let r ← call (ecSeckeyVerify (some seckey1))
  orExit r.1
  let r ← call (ecSeckeyVerify (some seckey2))
  orExit r.1
  let r ← call (ecPubkeyCreate ctx (some (u 0 64)) (some seckey1))
  assertThat (r.1 ≠ 0)
  let pubkey1 := r.2
  let r ← call (ecPubkeyCreate ctx (some (u 1 64)) (some seckey2))
  assertThat (r.1 ≠ 0)
  let pubkey2 := r.2
  let r ← call (ecPubkeySerialize (some (u 2 33)) (some 33) pubkey1 ecCompressed)
  assertThat (r.1 ≠ 0)
  let compressed1 := r.2.1
  assertThat (r.2.2 = some 33)
  let r ← call (ecPubkeySerialize (some (u 3 33)) (some 33) pubkey2 ecCompressed)
  assertThat (r.1 ≠ 0)
  let compressed2 := r.2.1
  assertThat (r.2.2 = some 33)
  let r ← call (ecdh (some (u 4 32)) pubkey2 (some seckey1) none)
  assertThat (r.1 ≠ 0)
  let shared1 := r.2
  let r ← call (ecdh (some (u 5 32)) pubkey1 (some seckey2) none)
  assertThat (r.1 ≠ 0)
  let shared2 := r.2
  assertThat (memcmpVar (shared1.getD []) (shared2.getD []) 32 = 0)
  let _ ← call (contextDestroy ctx)
  return ⟨seckey1, compressed1.getD [], seckey2, compressed2.getD [], shared1.getD []⟩

/-- `main` of ellswift.c:25-122 -/
def exampleEllswift (fuel : Nat) (junk : Ctx) (u : Nat → Nat → List UInt8)
    (randomize seckey1 seckey2 auxrand1 auxrand2 : Option (List UInt8)) : Run SharedPrinted := do
  let ctx ← newRandomized junk randomize
  let seckey1 ← fillRandom seckey1
  let seckey2 ← fillRandom seckey2
  let r ← call (ecSeckeyVerify (some seckey1))
  orExit r.1
  let r ← call (ecSeckeyVerify (some seckey2))
  orExit r.1
  let auxrand1 ← fillRandom auxrand1
  let auxrand2 ← fillRandom auxrand2
  let r ← callLoop (ellswiftCreate ctx fuel (some (u 0 64)) (some seckey1) (some auxrand1))
  assertThat (r.1 ≠ 0)
  let pubkey1 := r.2
  let r ← callLoop (ellswiftCreate ctx fuel (some (u 1 64)) (some seckey2) (some auxrand2))
  assertThat (r.1 ≠ 0)
  let pubkey2 := r.2
  let r ← call (ellswiftXdh (some (u 2 32)) pubkey1 pubkey2 (some seckey1) 0 (some ellswiftHashBip324))
  assertThat (r.1 ≠ 0)
  let shared1 := r.2
  let r ← call (ellswiftXdh (some (u 3 32)) pubkey1 pubkey2 (some seckey2) 1 (some ellswiftHashBip324))
  assertThat (r.1 ≠ 0)
  let shared2 := r.2
  assertThat (memcmpVar (shared1.getD []) (shared2.getD []) 32 = 0)
  let _ ← call (contextDestroy ctx)
  return ⟨seckey1, pubkey1.getD [], seckey2, pubkey2.getD [], shared1.getD []⟩

/-- `msg`, schnorr.c:22: "Hello World!" -/
def exampleSchnorrMsg : List UInt8 :=
  [0x48, 0x65, 0x6c, 0x6c, 0x6f, 0x20, 0x57, 0x6f, 0x72, 0x6c, 0x64, 0x21]

/-- `tag`, schnorr.c:24: "my_fancy_protocol" -/
def exampleSchnorrTag : List UInt8 :=
  [0x6d, 0x79, 0x5f, 0x66, 0x61, 0x6e, 0x63, 0x79, 0x5f, 0x70, 0x72, 0x6f, 0x74, 0x6f, 0x63, 0x6f, 0x6c]

/-- `main` of schnorr.c:21-154 -/
def exampleSchnorr (junk : Ctx) (u : Nat → Nat → List UInt8)
    (randomize seckey auxRand : Option (List UInt8)) : Run SigPrinted := do
  let ctx ← newRandomized junk randomize
  let seckey ← fillRandom seckey
  let r ← call (keypairCreate ctx (some (u 0 96)) (some seckey))
  orExit r.1
  let keypair := r.2
  let r ← call (keypairXonlyPub (some (u 1 64)) none keypair)
  assertThat (r.1 ≠ 0)
  let pubkey := r.2.1
  let r ← call (xonlyPubkeySerialize (some (u 2 32)) pubkey)
  assertThat (r.1 ≠ 0)
  let serialized := r.2
  let r ← call (taggedSha256 (some (u 3 32)) (some exampleSchnorrTag) (some exampleSchnorrMsg))
  assertThat (r.1 ≠ 0)
  let msgHash := r.2
  let auxRand ← fillRandom auxRand
  let r ← call (schnorrsigSign32 ctx (some (u 4 64)) msgHash keypair (some auxRand))
  assertThat (r.1 ≠ 0)
  let signature := r.2
  let r ← call (xonlyPubkeyParse pubkey serialized)
  orExit r.1
  let pubkey := r.2
  let r ← call (taggedSha256 msgHash (some exampleSchnorrTag) (some exampleSchnorrMsg))
  assertThat (r.1 ≠ 0)
  let msgHash := r.2
  let valid ← call (schnorrsigVerify signature msgHash 32 pubkey)
  let _ ← call (contextDestroy ctx)
  let valid2 ← call (schnorrsigVerify signature msgHash 32 pubkey)
  assertThat (valid2.1 = valid.1)
  return ⟨valid.1, seckey, serialized.getD [], signature.getD []⟩

/-! ## musig.c -/

/-- `struct signer_secrets` and `struct signer`, musig.c:26-35 -/
structure ExSigner where
  keypair : List UInt8
  secnonce : List UInt8
  pubkey : List UInt8
  pubnonce : List UInt8
  partialSig : List UInt8

/-- The memory of a signer before the program writes to it, the uninitialised buffer `seckey` in `sign`,
and the two values from `fill_random` used for this signer. -/
structure ExInput where
  mem : ExSigner
  buf : List UInt8
  seckey : Option (List UInt8)
  secrand : Option (List UInt8)

/-- `create_keypair`, musig.c:40-60 -/
def exCreateKeypair (ctx : Ctx) (inp : ExInput) : Run ExSigner := do
  let seckey ← fillRandom inp.seckey
  let r ← call (keypairCreate ctx (some inp.mem.keypair) (some seckey))
  orExit r.1
  let keypair := r.2.getD []
  let r ← call (keypairPub (some inp.mem.pubkey) (some keypair))
  orExit r.1
  return { inp.mem with keypair := keypair, pubkey := r.2.getD [] }

/-- The loop of `main` that makes the keys, musig.c:194-200 -/
def exCreateAll (ctx : Ctx) : List ExInput → Run (List ExSigner)
  | [] => .ok []
  | inp :: rest => do
    let s ← exCreateKeypair ctx inp
    let l ← exCreateAll ctx rest
    return s :: l

/-- `plain_tweak`, musig.c:68: "this could be a BIP32 tweak...." and a zero byte -/
def exPlainTweak : List UInt8 :=
  [0x74, 0x68, 0x69, 0x73, 0x20, 0x63, 0x6f, 0x75, 0x6c, 0x64, 0x20, 0x62, 0x65, 0x20, 0x61, 0x20,
   0x42, 0x49, 0x50, 0x33, 0x32, 0x20, 0x74, 0x77, 0x65, 0x61, 0x6b, 0x2e, 0x2e, 0x2e, 0x2e, 0x00]

/-- `xonly_tweak`, musig.c:71: "this could be a Taproot tweak.." and a zero byte -/
def exXonlyTweak : List UInt8 :=
  [0x74, 0x68, 0x69, 0x73, 0x20, 0x63, 0x6f, 0x75, 0x6c, 0x64, 0x20, 0x62, 0x65, 0x20, 0x61, 0x20,
   0x54, 0x61, 0x70, 0x72, 0x6f, 0x6f, 0x74, 0x20, 0x74, 0x77, 0x65, 0x61, 0x6b, 0x2e, 0x2e, 0x00]

/-- `msg`, musig.c:187: "this_could_be_the_hash_of_a_msg" and a zero byte -/
def exMusigMsg : List UInt8 :=
  [0x74, 0x68, 0x69, 0x73, 0x5f, 0x63, 0x6f, 0x75, 0x6c, 0x64, 0x5f, 0x62, 0x65, 0x5f, 0x74, 0x68,
   0x65, 0x5f, 0x68, 0x61, 0x73, 0x68, 0x5f, 0x6f, 0x66, 0x5f, 0x61, 0x5f, 0x6d, 0x73, 0x67, 0x00]

/-- `tweak`, musig.c:64-103: the x-only key and the cache. -/
def exTweak (u : Nat → Nat → List UInt8) (aggPk cache : Option (List UInt8)) :
    Run (Option (List UInt8) × Option (List UInt8)) := do
  let r ← call (musigEcTweakAdd none cache (some exPlainTweak))
  orExit r.1
  let cache := r.2.2
  let r ← call (musigXonlyTweakAdd (some (u 0 64)) cache (some exXonlyTweak))
  orExit r.1
  let cache := r.2.2
  let r ← call (xonlyPubkeyFromPubkey aggPk none r.2.1)
  orExit r.1
  return (r.2.1, cache)

/-- The first loop of `sign`, musig.c:114-134 -/
def exNonces (ctx : Ctx) (msg : List UInt8) : List (ExInput × ExSigner) → Run (List ExSigner)
  | [] => .ok []
  | (inp, s) :: rest => do
    let secrand ← fillRandom inp.secrand
    let r ← call (keypairSec (some inp.buf) (some s.keypair))
    orExit r.1
    let seckey := r.2
    let r ← call (musigNonceGen ctx (some s.secnonce) (some s.pubnonce) (some secrand) seckey
      (some s.pubkey) (some msg) none none)
    orExit r.1
    let l ← exNonces ctx msg rest
    return { s with secnonce := r.2.1.getD [], pubnonce := r.2.2.1.getD [] } :: l

/-- The second loop of `sign`, musig.c:144-156: the signers and the session, which every round makes
anew. -/
def exPartial (msg : List UInt8) (aggnonce cache : Option (List UInt8)) :
    List ExSigner → Option (List UInt8) → Run (List ExSigner × Option (List UInt8))
  | [], session => .ok ([], session)
  | s :: rest, session => do
    let r ← call (musigNonceProcess session aggnonce (some msg) cache)
    orExit r.1
    let session := r.2
    let r ← call (musigPartialSign (some s.partialSig) (some s.secnonce) (some s.keypair) cache session)
    orExit r.1
    let l ← exPartial msg aggnonce cache rest session
    return ({ s with partialSig := r.2.1.getD [], secnonce := r.2.2.getD [] } :: l.1, l.2)

/-- The third loop of `sign`, musig.c:160-175 -/
def exVerifyAll (cache session : Option (List UInt8)) : List ExSigner → Run Unit
  | [] => .ok ()
  | s :: rest => do
    let r ← call (musigPartialSigVerify (some s.partialSig) (some s.pubnonce) (some s.pubkey) cache session)
    orExit r.1
    exVerifyAll cache session rest

/-- `sign`, musig.c:106-177: the signers and `sig64`. -/
def exSign (ctx : Ctx) (u : Nat → Nat → List UInt8) (inps : List ExInput) (signers : List ExSigner)
    (cache : Option (List UInt8)) (msg : List UInt8) (sig64 : Option (List UInt8)) :
    Run (List ExSigner × Option (List UInt8)) := do
  let signers ← exNonces ctx msg (inps.zip signers)
  let r ← call (musigNonceAgg (some (u 1 132)) (some (signers.map ExSigner.pubnonce)))
  orExit r.1
  let aggnonce := r.2
  let r ← exPartial msg aggnonce cache signers (some (u 2 133))
  let signers := r.1
  let session := r.2
  exVerifyAll cache session signers
  let r ← call (musigPartialSigAgg sig64 session (some (signers.map ExSigner.partialSig)))
  orExit r.1
  return (signers, r.2)

/-- `main` of musig.c:179-261, for any number of signers (`N_SIGNERS` is 3): the x-only
key, the signature and the signers.  The message (`exMusigMsg` in the program) is an argument. -/
def exampleMusig (msg : List UInt8) (junk : Ctx) (u : Nat → Nat → List UInt8) (inps : List ExInput) :
    Run (List UInt8 × List UInt8 × List ExSigner) := do
  let ctx ← newContext junk
  let signers ← exCreateAll ctx inps
  let r ← callMem (ecPubkeySort (fun i => (signers[i]?).map ExSigner.pubkey)
    (some (List.range signers.length)))
  orExit r.1
  let pubkeys := (r.2.getD []).map fun i => ((signers[i]?).map ExSigner.pubkey).getD []
  let r ← call (musigPubkeyAgg none (some (u 3 197)) (some pubkeys))
  orExit r.1
  let r ← exTweak u (some (u 4 64)) r.2.2
  let aggPk := r.1
  let r ← exSign ctx u inps signers r.2 msg (some (u 5 64))
  let sig := r.2
  let signers := r.1
  let r ← call (schnorrsigVerify sig (some msg) 32 aggPk)
  orExit r.1
  let _ ← call (contextDestroy ctx)
  return (aggPk.getD [], sig.getD [], signers)

end Secp.Model
