import Verif.Proof.LimbXonly
import Verif.Props.C01
import Verif.Props.C02
import Verif.Props.C09
import Verif.Props.C10
import Verif.Props.C14
import Verif.Props.C21
import Verif.Props.C23
import Verif.Props.C28
import Verif.Props.C38
import Verif.Props.C38Schnorr
import Verif.Props.C56

/-!
# C69: the API on machine words, whichever field implementation is compiled in

The API functions over key objects, ECDSA, recovery, ECDH, x-only keys, key pairs and Schnorr signatures,
with every field element in limbs: 52-bit limbs with the inversion of `modinv64_impl.h` (`Fe5`), or 26-bit
limbs with that of `modinv32_impl.h` (`Fe10`).  `Limb.f` is the function `f` over limbs
(`Verif/Model/Limb/Api.lean`), in which a missing `secp256k1_fe_normalize` or an overflowing limb shows up
in the output.  For all inputs the return value, the number of callback calls and every output byte are
those of the functions of the same name over the integers modulo `p`, and so the same in both builds.
The properties C01 to C28 are about those functions and hold for both builds by these equations; the
theorems at the end spell this out for the main ones.

A key object is `Canon` if the two numbers stored in it are below `p`.  `C69_objects` says that all
objects that the API writes are; an object from elsewhere is outside the documented use.
-/

namespace Secp
open Model Spec

attribute [local instance] safegcdInv safegcdInv32

noncomputable local instance memRep5 : MemRep Fe5 := (Fe5.memRep safegcdInv_ok).some
noncomputable local instance memRep10 : MemRep Fe10 := (Fe10.memRep safegcdInv32_ok).some

/-- The objects that the API writes for a point, and the zeroed one, are canonical. -/
theorem C69_objects : Canon (List.replicate 64 0) ∧ (∀ P : Pt, Canon (keyObject P)) ∧
    (∀ d : Fn, Canon ((keypairObject d).drop 32)) ∧ Canon ((List.replicate 96 0).drop 32) := by
  have key : ∀ P : Pt, Canon (keyObject P) := by
    intro P
    refine ⟨?_, ?_⟩
    · rw [take_keyObject, leNat_ptX]; exact ptX_lt P
    · rw [drop_keyObject, List.take_of_length_le (by rw [leBytes_length]), leNat_ptY]; exact ptY_lt P
  have hz : Canon (List.replicate 64 0) := by
    refine ⟨?_, ?_⟩ <;> decide +kernel
  refine ⟨hz, key, fun d => ?_, hz⟩
  have : (keypairObject d).drop 32 = keyObject (d.val • G) := by
    rw [keypairObject, List.drop_left' (Hash.beBytes_length _ _)]
  rw [this]
  exact key _

/-! ### Keys -/

theorem C69_ec_pubkey_parse (pubkey input : Option Bytes) :
    Limb.ecPubkeyParse Fe5 pubkey input = ecPubkeyParse pubkey input ∧
    Limb.ecPubkeyParse Fe10 pubkey input = ecPubkeyParse pubkey input :=
  ⟨Limb.ecPubkeyParse_eq _ _, Limb.ecPubkeyParse_eq _ _⟩

theorem C69_ec_pubkey_serialize (output : Option Bytes) (outputlen : Option ℕ) (pubkey : Option Bytes)
    (flags : UInt32) :
    Limb.ecPubkeySerialize Fe5 output outputlen pubkey flags = ecPubkeySerialize output outputlen pubkey flags ∧
    Limb.ecPubkeySerialize Fe10 output outputlen pubkey flags = ecPubkeySerialize output outputlen pubkey flags :=
  ⟨Limb.ecPubkeySerialize_eq _ _ _ _, Limb.ecPubkeySerialize_eq _ _ _ _⟩

theorem C69_ec_pubkey_cmp (pubkey0 pubkey1 : Option Bytes) :
    Limb.ecPubkeyCmp Fe5 pubkey0 pubkey1 = ecPubkeyCmp pubkey0 pubkey1 ∧
    Limb.ecPubkeyCmp Fe10 pubkey0 pubkey1 = ecPubkeyCmp pubkey0 pubkey1 :=
  ⟨Limb.ecPubkeyCmp_eq _ _, Limb.ecPubkeyCmp_eq _ _⟩

theorem C69_ec_pubkey_negate (pubkey : Option Bytes) :
    Limb.ecPubkeyNegate Fe5 pubkey = ecPubkeyNegate pubkey ∧
    Limb.ecPubkeyNegate Fe10 pubkey = ecPubkeyNegate pubkey :=
  ⟨Limb.ecPubkeyNegate_eq _, Limb.ecPubkeyNegate_eq _⟩

theorem C69_ec_pubkey_tweak (pubkey tweak32 : Option Bytes) :
    Limb.ecPubkeyTweakAdd Fe5 pubkey tweak32 = ecPubkeyTweakAdd pubkey tweak32 ∧
    Limb.ecPubkeyTweakAdd Fe10 pubkey tweak32 = ecPubkeyTweakAdd pubkey tweak32 ∧
    Limb.ecPubkeyTweakMul Fe5 pubkey tweak32 = ecPubkeyTweakMul pubkey tweak32 ∧
    Limb.ecPubkeyTweakMul Fe10 pubkey tweak32 = ecPubkeyTweakMul pubkey tweak32 :=
  ⟨Limb.ecPubkeyTweakAdd_eq _ _, Limb.ecPubkeyTweakAdd_eq _ _, Limb.ecPubkeyTweakMul_eq _ _,
    Limb.ecPubkeyTweakMul_eq _ _⟩

theorem C69_ec_pubkey_combine (pubnonce : Option Bytes) (pubnonces : Option (List (Option Bytes))) (n : ℕ) :
    Limb.ecPubkeyCombine Fe5 pubnonce pubnonces n = ecPubkeyCombine pubnonce pubnonces n ∧
    Limb.ecPubkeyCombine Fe10 pubnonce pubnonces n = ecPubkeyCombine pubnonce pubnonces n :=
  ⟨Limb.ecPubkeyCombine_eq _ _ _, Limb.ecPubkeyCombine_eq _ _ _⟩

/-! ### Functions with a context

The three contexts are any that a program can hold, made with any seeds. -/

section
variable {c5 : Limb.Ctx Fe5} {c10 : Limb.Ctx Fe10} {C : Ctx}

theorem createHelper_same {ctx ctx' : Ctx} (h : LiveCtx ctx) (h' : LiveCtx ctx') (seckey : Bytes) :
    ecPubkeyCreateHelper ctx.gen seckey = ecPubkeyCreateHelper ctx'.gen seckey := by
  have hne : scCmov (scSetB32Seckey seckey).1 1 (!(scSetB32Seckey seckey).2) ≠ 0 := by
    cases hb : (scSetB32Seckey seckey).2
    · simp [scCmov]
    · simpa [scCmov] using (scSetB32Seckey_val hb).2
  unfold ecPubkeyCreateHelper
  dsimp only
  rw [(C38_generator_multiplication_same h h' _ hne).1]

/-- Making, cloning and randomizing contexts: the randomization of a live context succeeds without a
callback and gives a live context. -/
theorem C69_context_randomize (h5 : Limb.LiveCtx c5) (h10 : Limb.LiveCtx c10) (seed : Option Bytes) :
    ((Limb.contextRandomize c5 seed).ret = 1 ∧ (Limb.contextRandomize c5 seed).illegal = 0) ∧
    ((Limb.contextRandomize c10 seed).ret = 1 ∧ (Limb.contextRandomize c10 seed).illegal = 0) := by
  obtain ⟨X, hX, l⟩ := Limb.live_limb h5
  obtain ⟨Y, hY, l'⟩ := Limb.live_limb h10
  obtain ⟨e1, e2, -⟩ := l.randomize seed
  obtain ⟨e1', e2', -⟩ := l'.randomize seed
  obtain ⟨f1, f2, -⟩ := C38_randomize_succeeds hX seed
  obtain ⟨g1, g2, -⟩ := C38_randomize_succeeds hY seed
  exact ⟨⟨e1.trans f1, e2.trans f2⟩, e1'.trans g1, e2'.trans g2⟩

theorem C69_ec_pubkey_create (h5 : Limb.LiveCtx c5) (h10 : Limb.LiveCtx c10) (h : LiveCtx C)
    (pubkey seckey : Option Bytes) :
    Limb.ecPubkeyCreate c5 pubkey seckey = ecPubkeyCreate C pubkey seckey ∧
    Limb.ecPubkeyCreate c10 pubkey seckey = ecPubkeyCreate C pubkey seckey := by
  have key : ∀ X, LiveCtx X → ecPubkeyCreate X pubkey seckey = ecPubkeyCreate C pubkey seckey := by
    intro X hX
    unfold ecPubkeyCreate
    simp only [ecmultGenIsBuilt, hX.ok.built, h.ok.built, createHelper_same hX h]
  obtain ⟨X, hX, l⟩ := Limb.live_limb h5
  obtain ⟨Y, hY, l'⟩ := Limb.live_limb h10
  exact ⟨(Limb.ecPubkeyCreate_eq l _ _).trans (key X hX), (Limb.ecPubkeyCreate_eq l' _ _).trans (key Y hY)⟩

theorem C69_keypair_create (h5 : Limb.LiveCtx c5) (h10 : Limb.LiveCtx c10) (h : LiveCtx C)
    (keypair seckey : Option Bytes) :
    Limb.keypairCreate c5 keypair seckey = keypairCreate C keypair seckey ∧
    Limb.keypairCreate c10 keypair seckey = keypairCreate C keypair seckey := by
  have key : ∀ X, LiveCtx X → keypairCreate X keypair seckey = keypairCreate C keypair seckey := by
    intro X hX
    unfold keypairCreate
    simp only [ecmultGenIsBuilt, hX.ok.built, h.ok.built, createHelper_same hX h]
  obtain ⟨X, hX, l⟩ := Limb.live_limb h5
  obtain ⟨Y, hY, l'⟩ := Limb.live_limb h10
  exact ⟨(Limb.keypairCreate_eq l _ _).trans (key X hX), (Limb.keypairCreate_eq l' _ _).trans (key Y hY)⟩

/-- ECDSA signing, also recoverable, with any nonce function. -/
theorem C69_ecdsa_sign (h5 : Limb.LiveCtx c5) (h10 : Limb.LiveCtx c10) (h : LiveCtx C) (fuel : ℕ)
    (sig msg seckey : Option Bytes) (nf : Option NonceFn) (data : Option Bytes) :
    Limb.ecdsaSign fuel c5 sig msg seckey nf data = ecdsaSign fuel C sig msg seckey nf data ∧
    Limb.ecdsaSign fuel c10 sig msg seckey nf data = ecdsaSign fuel C sig msg seckey nf data ∧
    Limb.ecdsaSignRecoverable fuel c5 sig msg seckey nf data = ecdsaSignRecoverable fuel C sig msg seckey nf data ∧
    Limb.ecdsaSignRecoverable fuel c10 sig msg seckey nf data =
      ecdsaSignRecoverable fuel C sig msg seckey nf data := by
  obtain ⟨X, hX, l⟩ := Limb.live_limb h5
  obtain ⟨Y, hY, l'⟩ := Limb.live_limb h10
  have e := C38_ecdsa_sign_same hX h fuel sig msg seckey nf data
  have e' := C38_ecdsa_sign_same hY h fuel sig msg seckey nf data
  exact ⟨(Limb.ecdsaSign_eq l _ _ _ _ _ _).trans e.1, (Limb.ecdsaSign_eq l' _ _ _ _ _ _).trans e'.1,
    (Limb.ecdsaSignRecoverable_eq l _ _ _ _ _ _).trans e.2,
    (Limb.ecdsaSignRecoverable_eq l' _ _ _ _ _ _).trans e'.2⟩

/-- Schnorr signing, with the default or any other nonce function. -/
theorem C69_schnorrsig_sign (h5 : Limb.LiveCtx c5) (h10 : Limb.LiveCtx c10) (h : LiveCtx C)
    (sig msg : Option Bytes) (msglen : ℕ) {keypair : Option Bytes}
    (hk : ∀ b ∈ keypair, Canon (b.drop 32)) (aux : Option Bytes) (ex : Option SchnorrExtra) :
    Limb.schnorrsigSign32 c5 sig msg keypair aux = schnorrsigSign32 C sig msg keypair aux ∧
    Limb.schnorrsigSign32 c10 sig msg keypair aux = schnorrsigSign32 C sig msg keypair aux ∧
    Limb.schnorrsigSignCustom c5 sig msg msglen keypair ex = schnorrsigSignCustom C sig msg msglen keypair ex ∧
    Limb.schnorrsigSignCustom c10 sig msg msglen keypair ex = schnorrsigSignCustom C sig msg msglen keypair ex := by
  obtain ⟨X, hX, l⟩ := Limb.live_limb h5
  obtain ⟨Y, hY, l'⟩ := Limb.live_limb h10
  have e := C38_schnorr_sign_same hX h sig msg msglen keypair aux ex
  have e' := C38_schnorr_sign_same hY h sig msg msglen keypair aux ex
  exact ⟨(Limb.schnorrsigSign32_eq l _ _ hk _).trans e.1, (Limb.schnorrsigSign32_eq l' _ _ hk _).trans e'.1,
    (Limb.schnorrsigSignCustom_eq l _ _ _ hk _).trans e.2.2,
    (Limb.schnorrsigSignCustom_eq l' _ _ _ hk _).trans e'.2.2⟩

end

/-! ### Verification, recovery, ECDH -/

theorem C69_ecdsa_verify (sig msghash32 pubkey : Option Bytes) :
    Limb.ecdsaVerify Fe5 sig msghash32 pubkey = ecdsaVerify sig msghash32 pubkey ∧
    Limb.ecdsaVerify Fe10 sig msghash32 pubkey = ecdsaVerify sig msghash32 pubkey :=
  ⟨Limb.ecdsaVerify_eq _ _ _, Limb.ecdsaVerify_eq _ _ _⟩

theorem C69_ecdsa_recover (pubkey signature msghash32 : Option Bytes) :
    Limb.ecdsaRecover Fe5 pubkey signature msghash32 = ecdsaRecover pubkey signature msghash32 ∧
    Limb.ecdsaRecover Fe10 pubkey signature msghash32 = ecdsaRecover pubkey signature msghash32 :=
  ⟨Limb.ecdsaRecover_eq _ _ _, Limb.ecdsaRecover_eq _ _ _⟩

theorem C69_ecdh (output point scalar : Option Bytes) (hashfp : Option EcdhHash) :
    Limb.ecdh Fe5 output point scalar hashfp = ecdh output point scalar hashfp ∧
    Limb.ecdh Fe10 output point scalar hashfp = ecdh output point scalar hashfp :=
  ⟨Limb.ecdh_eq _ _ _ _, Limb.ecdh_eq _ _ _ _⟩

theorem C69_schnorrsig_verify {sig64 : Option Bytes} (hs : ∀ b ∈ sig64, b.length = 64) (msg : Option Bytes)
    (msglen : ℕ) {pubkey : Option Bytes} (hk : ∀ b ∈ pubkey, Canon b) :
    Limb.schnorrsigVerify Fe5 sig64 msg msglen pubkey = schnorrsigVerify sig64 msg msglen pubkey ∧
    Limb.schnorrsigVerify Fe10 sig64 msg msglen pubkey = schnorrsigVerify sig64 msg msglen pubkey := by
  have hs' : ∀ b ∈ sig64, 32 ≤ b.length := fun b hb => by rw [hs b hb]; omega
  exact ⟨Limb.schnorrsigVerify_eq hs' _ _ hk, Limb.schnorrsigVerify_eq hs' _ _ hk⟩

/-! ### X-only keys and key pairs -/

theorem C69_xonly_pubkey_parse (pubkey : Option Bytes) {input32 : Option Bytes}
    (hi : ∀ b ∈ input32, b.length = 32) :
    Limb.xonlyPubkeyParse Fe5 pubkey input32 = xonlyPubkeyParse pubkey input32 ∧
    Limb.xonlyPubkeyParse Fe10 pubkey input32 = xonlyPubkeyParse pubkey input32 := by
  have hi' : ∀ b ∈ input32, 32 ≤ b.length := fun b hb => by rw [hi b hb]
  exact ⟨Limb.xonlyPubkeyParse_eq _ hi', Limb.xonlyPubkeyParse_eq _ hi'⟩

theorem C69_xonly_pubkey_serialize (output32 : Option Bytes) {pubkey : Option Bytes}
    (hk : ∀ b ∈ pubkey, Canon b) :
    Limb.xonlyPubkeySerialize Fe5 output32 pubkey = xonlyPubkeySerialize output32 pubkey ∧
    Limb.xonlyPubkeySerialize Fe10 output32 pubkey = xonlyPubkeySerialize output32 pubkey :=
  ⟨Limb.xonlyPubkeySerialize_eq _ hk, Limb.xonlyPubkeySerialize_eq _ hk⟩

theorem C69_xonly_pubkey_cmp {pk0 pk1 : Option Bytes} (h0 : ∀ b ∈ pk0, Canon b) (h1 : ∀ b ∈ pk1, Canon b) :
    Limb.xonlyPubkeyCmp Fe5 pk0 pk1 = xonlyPubkeyCmp pk0 pk1 ∧
    Limb.xonlyPubkeyCmp Fe10 pk0 pk1 = xonlyPubkeyCmp pk0 pk1 :=
  ⟨Limb.xonlyPubkeyCmp_eq h0 h1, Limb.xonlyPubkeyCmp_eq h0 h1⟩

theorem C69_xonly_pubkey_from_pubkey (xonlyPubkey : Option Bytes) (pkParity : Option ℤ)
    {pubkey : Option Bytes} (hk : ∀ b ∈ pubkey, Canon b) :
    Limb.xonlyPubkeyFromPubkey Fe5 xonlyPubkey pkParity pubkey =
      xonlyPubkeyFromPubkey xonlyPubkey pkParity pubkey ∧
    Limb.xonlyPubkeyFromPubkey Fe10 xonlyPubkey pkParity pubkey =
      xonlyPubkeyFromPubkey xonlyPubkey pkParity pubkey :=
  ⟨Limb.xonlyPubkeyFromPubkey_eq _ _ hk, Limb.xonlyPubkeyFromPubkey_eq _ _ hk⟩

theorem C69_xonly_pubkey_tweak_add (outputPubkey internalPubkey tweak32 : Option Bytes) :
    Limb.xonlyPubkeyTweakAdd Fe5 outputPubkey internalPubkey tweak32 =
      xonlyPubkeyTweakAdd outputPubkey internalPubkey tweak32 ∧
    Limb.xonlyPubkeyTweakAdd Fe10 outputPubkey internalPubkey tweak32 =
      xonlyPubkeyTweakAdd outputPubkey internalPubkey tweak32 :=
  ⟨Limb.xonlyPubkeyTweakAdd_eq _ _ _, Limb.xonlyPubkeyTweakAdd_eq _ _ _⟩

theorem C69_xonly_pubkey_tweak_add_check (tweaked : Option Bytes) (parity : ℤ) (internal tweak32 : Option Bytes) :
    Limb.xonlyPubkeyTweakAddCheck Fe5 tweaked parity internal tweak32 =
      xonlyPubkeyTweakAddCheck tweaked parity internal tweak32 ∧
    Limb.xonlyPubkeyTweakAddCheck Fe10 tweaked parity internal tweak32 =
      xonlyPubkeyTweakAddCheck tweaked parity internal tweak32 :=
  ⟨Limb.xonlyPubkeyTweakAddCheck_eq _ _ _ _, Limb.xonlyPubkeyTweakAddCheck_eq _ _ _ _⟩

theorem C69_keypair_xonly_pub (pubkey : Option Bytes) (pkParity : Option ℤ) {keypair : Option Bytes}
    (hk : ∀ b ∈ keypair, Canon (b.drop 32)) :
    Limb.keypairXonlyPub Fe5 pubkey pkParity keypair = keypairXonlyPub pubkey pkParity keypair ∧
    Limb.keypairXonlyPub Fe10 pubkey pkParity keypair = keypairXonlyPub pubkey pkParity keypair :=
  ⟨Limb.keypairXonlyPub_eq _ _ hk, Limb.keypairXonlyPub_eq _ _ hk⟩

theorem C69_keypair_xonly_tweak_add {keypair : Option Bytes} (tweak32 : Option Bytes)
    (hk : ∀ b ∈ keypair, Canon (b.drop 32)) :
    Limb.keypairXonlyTweakAdd Fe5 keypair tweak32 = keypairXonlyTweakAdd keypair tweak32 ∧
    Limb.keypairXonlyTweakAdd Fe10 keypair tweak32 = keypairXonlyTweakAdd keypair tweak32 :=
  ⟨Limb.keypairXonlyTweakAdd_eq _ hk, Limb.keypairXonlyTweakAdd_eq _ hk⟩

/-! ### What this says about the main properties

The statements of C01, C09, C10, C14, C21, C23 and C56, for the functions over machine words. -/

/-- C01 on machine words: exactly the encodings of curve points are accepted, with the point's object. -/
theorem C69_parse (old input : Bytes) :
    ((Limb.ecPubkeyParse Fe5 (some old) (some input)).ret = 1 ↔ Sec1Valid input) ∧
    ((Limb.ecPubkeyParse Fe10 (some old) (some input)).ret = 1 ↔ Sec1Valid input) ∧
    ∀ P : Pt, P ≠ 0 → (input = compressed P ∨ input = uncompressed P ∨ input = hybrid P) →
      Limb.ecPubkeyParse Fe5 (some old) (some input) = ⟨1, 0, some (keyObject P)⟩ ∧
      Limb.ecPubkeyParse Fe10 (some old) (some input) = ⟨1, 0, some (keyObject P)⟩ := by
  obtain ⟨e, e'⟩ := C69_ec_pubkey_parse (some old) (some input)
  rw [e, e']
  have h := (C01_parse_accepts_iff old input).1
  exact ⟨h, h, fun P hP hi => ⟨C01_parse_value old hP hi, C01_parse_value old hP hi⟩⟩

/-- C09 on machine words: a signature is accepted iff it satisfies the ECDSA equation and has a low `s`. -/
theorem C69_verify {Q : Pt} (hQ : Q ≠ 0) (r s : Fn) {msg : Bytes} (hl : msg.length = 32) :
    (Limb.ecdsaVerify Fe5 (some (sigObject r s)) (some msg) (some (keyObject Q)) = ⟨1, 0, ()⟩ ↔
      EcdsaValid Q (msgScalar msg) r s ∧ s.val ≤ (n - 1) / 2) ∧
    (Limb.ecdsaVerify Fe10 (some (sigObject r s)) (some msg) (some (keyObject Q)) = ⟨1, 0, ()⟩ ↔
      EcdsaValid Q (msgScalar msg) r s ∧ s.val ≤ (n - 1) / 2) := by
  obtain ⟨e, e'⟩ := C69_ecdsa_verify (some (sigObject r s)) (some msg) (some (keyObject Q))
  rw [e, e']
  exact ⟨C09_verify_accepts hQ r s hl, C09_verify_accepts hQ r s hl⟩

/-- C10 on machine words: what one build signs, both builds accept, under the key that either makes. -/
theorem C69_sign_verifies {c5 : Limb.Ctx Fe5} {c10 : Limb.Ctx Fe10} (h5 : Limb.LiveCtx c5)
    (h10 : Limb.LiveCtx c10) {fuel : ℕ} {msg seckey : Bytes} (hm : msg.length = 32) (hk : seckey.length = 32)
    (nf : Option NonceFn) (data : Option Bytes) (old old' : Bytes) {sig : Bytes}
    (h : Limb.ecdsaSign fuel c5 (some old) (some msg) (some seckey) nf data = some ⟨1, 0, some sig⟩ ∨
      Limb.ecdsaSign fuel c10 (some old) (some msg) (some seckey) nf data = some ⟨1, 0, some sig⟩) :
    ∃ pk, Limb.ecPubkeyCreate c5 (some old') (some seckey) = ⟨1, 0, some pk⟩ ∧
      Limb.ecPubkeyCreate c10 (some old') (some seckey) = ⟨1, 0, some pk⟩ ∧
      Limb.ecdsaVerify Fe5 (some sig) (some msg) (some pk) = ⟨1, 0, ()⟩ ∧
      Limb.ecdsaVerify Fe10 (some sig) (some msg) (some pk) = ⟨1, 0, ()⟩ := by
  obtain ⟨C, hC, -⟩ := Limb.live_limb h5
  obtain ⟨e, e', -⟩ := C69_ecdsa_sign h5 h10 hC fuel (some old) (some msg) (some seckey) nf data
  rw [e, e', or_self] at h
  obtain ⟨pk, k1, k2, -⟩ := C10_sign_verifies hC hC hm hk nf data old old' h
  obtain ⟨f, f'⟩ := C69_ec_pubkey_create h5 h10 hC (some old') (some seckey)
  obtain ⟨g, g'⟩ := C69_ecdsa_verify (some sig) (some msg) (some pk)
  exact ⟨pk, f.trans k1, f'.trans k1, g.trans k2, g'.trans k2⟩

/-- C14 on machine words: recovery returns exactly the key that the signature and the id determine. -/
theorem C69_recover (old : Bytes) (r s : Fn) {v : ℕ} (hv : v < 4) {msg : Bytes} (hm : msg.length = 32)
    (pk : Bytes) :
    (Limb.ecdsaRecover Fe5 (some old) (some (recObject r s v)) (some msg) = ⟨1, 0, some pk⟩ ↔
      r ≠ 0 ∧ s ≠ 0 ∧ ∃ R, RecoveryPoint r v R ∧ recoveredKey R (msgScalar msg) r s ≠ 0 ∧
        pk = keyObject (recoveredKey R (msgScalar msg) r s)) ∧
    (Limb.ecdsaRecover Fe10 (some old) (some (recObject r s v)) (some msg) = ⟨1, 0, some pk⟩ ↔
      r ≠ 0 ∧ s ≠ 0 ∧ ∃ R, RecoveryPoint r v R ∧ recoveredKey R (msgScalar msg) r s ≠ 0 ∧
        pk = keyObject (recoveredKey R (msgScalar msg) r s)) := by
  obtain ⟨e, e'⟩ := C69_ecdsa_recover (some old) (some (recObject r s v)) (some msg)
  rw [e, e']
  exact ⟨C14_recover_iff old r s hv hm pk, C14_recover_iff old r s hv hm pk⟩

/-- C21 on machine words: the default shared secret is SHA-256 of the compressed `a • Q`. -/
theorem C69_shared_secret {Q : Pt} (hQ : Q ≠ 0) {out : Bytes} (ho : out.length = 32) {a : Bytes}
    (ha : a.length = 32) (h1 : 1 ≤ beNat a) (hn : beNat a < n) :
    Limb.ecdh Fe5 (some out) (some (keyObject Q)) (some a) none =
      ⟨1, 0, some (sha256 (compressed (beNat a • Q)))⟩ ∧
    Limb.ecdh Fe10 (some out) (some (keyObject Q)) (some a) none =
      ⟨1, 0, some (sha256 (compressed (beNat a • Q)))⟩ := by
  obtain ⟨e, e'⟩ := C69_ecdh (some out) (some (keyObject Q)) (some a) none
  rw [e, e']
  exact ⟨C21_default_hash hQ ho ha h1 hn, C21_default_hash hQ ho ha h1 hn⟩

/-- C23 on machine words: Schnorr verification is that of BIP-340. -/
theorem C69_schnorr_verify {P : Pt} (hP : P ≠ 0) {sig : Bytes} (hs : sig.length = 64) (msg : Bytes)
    {msglen : ℕ} (hm : msglen ≤ msg.length) :
    ((Limb.schnorrsigVerify Fe5 (some sig) (some msg) msglen (some (keyObject P))).ret = 1 ↔
      SchnorrValid P (msg.take msglen) sig) ∧
    ((Limb.schnorrsigVerify Fe10 (some sig) (some msg) msglen (some (keyObject P))).ret = 1 ↔
      SchnorrValid P (msg.take msglen) sig) := by
  obtain ⟨e, e'⟩ := C69_schnorrsig_verify (sig64 := some sig) (by simpa using hs) (some msg) msglen
    (pubkey := some (keyObject P)) (by simpa using C69_objects.2.1 P)
  rw [e, e']
  exact ⟨(C23_verify_iff hP hs msg hm).1, (C23_verify_iff hP hs msg hm).1⟩

/-- C56 on machine words: Schnorr signing is that of BIP-340. -/
theorem C69_schnorr_sign {c5 : Limb.Ctx Fe5} {c10 : Limb.Ctx Fe10} (h5 : Limb.LiveCtx c5)
    (h10 : Limb.LiveCtx c10) {old : Bytes} (ho : old.length = 64) {msg : Bytes} (hm : msg.length = 32)
    {d : Fn} (hd : d ≠ 0) {aux : Option Bytes} (ha : ∀ a, aux = some a → a.length = 32) :
    let d' := if ptY (d.val • G) % 2 = 1 then -d else d
    let k : Fn := ((schnorrRand d' (d'.val • G) (aux.getD (List.replicate 32 0)) msg : ℕ) : Fn)
    let k' := if ptY (k.val • G) % 2 = 1 then -k else k
    k ≠ 0 →
    Limb.schnorrsigSign32 c5 (some old) (some msg) (some (keypairObject d)) aux =
      ⟨1, 0, some (schnorrSig d' k' msg)⟩ ∧
    Limb.schnorrsigSign32 c10 (some old) (some msg) (some (keypairObject d)) aux =
      ⟨1, 0, some (schnorrSig d' k' msg)⟩ := by
  intro d' k k' hk
  obtain ⟨C, hC, -⟩ := Limb.live_limb h5
  obtain ⟨e, e', -⟩ := C69_schnorrsig_sign h5 h10 hC (some old) (some msg) 32 (keypair := some (keypairObject d))
    (by simpa using C69_objects.2.2.1 d) aux none
  rw [e, e']
  have h := (C56_sign32 hC ho hm hd ha).1 hk
  exact ⟨h, h⟩

/-! ### The hypotheses can be met -/

/-- Contexts over limbs exist, randomized too. -/
theorem exLimbCtx (α : Type) [FeOps α] [FeMem α] : ∃ c : Limb.Ctx α, Limb.LiveCtx c := by
  refine ⟨_, .create (junk := ⟨⟨comb2, false, 0, geInfinity, FeOps.setInt 0⟩, defaultCallback, defaultCallback, false⟩)
    (flags := 1) (.inl rfl) rfl⟩

example : ∃ (c5 : Limb.Ctx Fe5) (c10 : Limb.Ctx Fe10) (C : Ctx), Limb.LiveCtx c5 ∧ Limb.LiveCtx c10 ∧
    LiveCtx C ∧ Limb.LiveCtx (Limb.contextRandomize c5 (some (List.replicate 32 7))).val := by
  obtain ⟨c5, h5⟩ := exLimbCtx Fe5
  obtain ⟨c10, h10⟩ := exLimbCtx Fe10
  obtain ⟨C, hC, -⟩ := Limb.live_limb h5
  exact ⟨c5, c10, C, h5, h10, hC, .randomize h5 _⟩

/-- A canonical object and one that is not. -/
example : Canon (keyObject G) ∧ ¬ Canon (List.replicate 64 255) := by
  refine ⟨C69_objects.2.1 G, fun h => ?_⟩
  exact absurd h.1 (by decide +kernel)

/-- The generator's encoding is accepted on both kinds of limbs. -/
example : (Limb.ecPubkeyParse Fe5 (some []) (some (compressed G))).ret = 1 ∧
    (Limb.ecPubkeyParse Fe10 (some []) (some (compressed G))).ret = 1 := by
  obtain ⟨-, -, h⟩ := C69_parse [] (compressed G)
  obtain ⟨e, e'⟩ := h G G_ne_zero (.inl rfl)
  rw [e, e']
  exact ⟨rfl, rfl⟩

end Secp
