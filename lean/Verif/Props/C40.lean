import Verif.Proof.Illegal
import Verif.Model.ApiEcdsa
import Verif.Model.Context
import Verif.Model.Ecdh
import Verif.Model.Ellswift
import Verif.Model.TaggedSha
import Verif.Props.C03

/-! # C40: illegal arguments are reported and fail safe

For each function `Reports bad keep o` lists in `bad` every violation of a checked precondition, and says
that exactly then the illegal-argument callback is called - once - and the call returns 0 and leaves the
caller's memory untouched or zeroed.  The arguments are arbitrary: any combination of NULLs, any object
contents, any integers. -/

namespace Secp
open Model Spec

syntax "keeps" : tactic
macro_rules | `(tactic| keeps) => `(tactic| first
  | trivial
  | exact rfl
  | exact kept_refl _
  | exact kept_zeros _ _
  | exact kept_put _ _
  | exact kept_map _ _
  | exact keptNum_refl _
  | exact keptNum_zero _
  | exact ⟨by keeps, by keeps⟩)

/-- Closes a goal `Reports bad keep o` once `o` is evaluated. -/
macro "leaf" : tactic => `(tactic| first
  | exact reports_ok (by simp_all [← load_false])
  | exact reports_arg (by simp_all [← load_false]) (by keeps)
  | exact reports_bad (by simp_all [← load_false]) (by keeps))

/-- The same for `ReportsLoop`. -/
macro "leafLoop" : tactic => `(tactic| first
  | exact reportsLoop_ok (by simp_all [← load_false])
  | exact reportsLoop_none (by simp_all [← load_false])
  | exact reportsLoop_arg (by simp_all [← load_false]) (by keeps)
  | exact reportsLoop_bad (by simp_all [← load_false]) (by keeps))

/-! ## Keys -/

theorem C40_ec_pubkey_parse (pubkey input : Option Bytes) :
    Reports (pubkey = none ∨ input = none) (Kept pubkey) (ecPubkeyParse pubkey input) := by
  cases pubkey <;> cases input <;> simp only [ecPubkeyParse] <;> (try split_ifs) <;> leaf

theorem C40_ec_pubkey_serialize (output : Option Bytes) (outputlen : Option ℕ) (pubkey : Option Bytes)
    (flags : UInt32) :
    Reports (output = none ∨ outputlen = none ∨ pubkey = none ∨
        (∃ len, outputlen = some len ∧ len < (if flags &&& 0x100 ≠ 0 then 33 else 65)) ∨
        flags &&& 0xff ≠ 2 ∨ ∃ b, pubkey = some b ∧ NoKey b)
      (fun v => Kept output v.1 ∧ KeptNum outputlen v.2)
      (ecPubkeySerialize output outputlen pubkey flags) := by
  have e : ecPubkeySerialize output outputlen pubkey flags =
      match outputlen with
      | none => .argFail (output, none)
      | some len =>
        if ¬ len ≥ (if flags &&& 0x100 ≠ 0 then 33 else 65) then .argFail (output, some len)
        else
          match output with
          | none => .argFail (none, some 0)
          | some out =>
            match pubkey with
            | none => .argFail (some (put out 0 (zeros len)), some 0)
            | some pubkey =>
              if flags &&& 0xff ≠ 2 then .argFail (some (put out 0 (zeros len)), some 0)
              else if (pubkeyLoad pubkey).2 = true then
                let r := eckeyPubkeySerialize (pubkeyLoad pubkey).1 (put out 0 (zeros len)) len
                  (flags &&& 0x100 ≠ 0)
                if r.2.2 then ⟨1, 0, (some r.1, some r.2.1)⟩ else ⟨0, 0, (some r.1, some 0)⟩
              else ⟨0, 1, (some (put out 0 (zeros len)), some 0)⟩ := by
    rfl
  rw [e]
  generalize (if flags &&& 0x100 ≠ 0 then 33 else 65) = need
  cases outputlen with
  | none => leaf
  | some len =>
    cases output <;> cases pubkey <;> dsimp only <;> split_ifs <;> leaf

theorem C40_ec_seckey_verify (seckey : Option Bytes) :
    Reports (seckey = none) (fun _ => True) (ecSeckeyVerify seckey) := by
  cases seckey <;> simp only [ecSeckeyVerify] <;> leaf

theorem C40_ec_pubkey_create (ctx : Ctx) (pubkey seckey : Option Bytes) :
    Reports (pubkey = none ∨ seckey = none ∨ ecmultGenIsBuilt ctx.gen = false) (Kept pubkey)
      (ecPubkeyCreate ctx pubkey seckey) := by
  cases pubkey <;> cases seckey <;> simp only [ecPubkeyCreate] <;> (try split_ifs) <;> leaf

theorem C40_ec_seckey_negate (seckey : Option Bytes) :
    Reports (seckey = none) (Kept seckey) (ecSeckeyNegate seckey) := by
  cases seckey <;> simp only [ecSeckeyNegate] <;> leaf

theorem C40_ec_pubkey_negate (pubkey : Option Bytes) :
    Reports (pubkey = none ∨ ∃ b, pubkey = some b ∧ NoKey b) (Kept pubkey) (ecPubkeyNegate pubkey) := by
  cases pubkey <;> simp only [ecPubkeyNegate] <;> (try split_ifs) <;> leaf

/-- A call that is reported leaves the secret key as it was. -/
theorem C40_ec_seckey_tweak_add (seckey tweak : Option Bytes) :
    Reports (seckey = none ∨ tweak = none) (· = seckey) (ecSeckeyTweakAdd seckey tweak) := by
  cases seckey <;> cases tweak <;> simp only [ecSeckeyTweakAdd] <;> leaf

/-- A call that is reported leaves the secret key as it was. -/
theorem C40_ec_seckey_tweak_mul (seckey tweak : Option Bytes) :
    Reports (seckey = none ∨ tweak = none) (· = seckey) (ecSeckeyTweakMul seckey tweak) := by
  cases seckey <;> cases tweak <;> simp only [ecSeckeyTweakMul] <;> leaf

theorem C40_ec_pubkey_tweak_add (pubkey tweak : Option Bytes) :
    Reports (pubkey = none ∨ tweak = none ∨ ∃ b, pubkey = some b ∧ NoKey b) (Kept pubkey)
      (ecPubkeyTweakAdd pubkey tweak) := by
  cases pubkey <;> cases tweak <;> simp only [ecPubkeyTweakAdd] <;> (try split_ifs) <;> leaf

/-- A NULL tweak leaves the public key as it was. -/
theorem C40_ec_pubkey_tweak_null (pubkey : Option Bytes) :
    ecPubkeyTweakAdd pubkey none = ⟨0, 1, pubkey⟩ ∧ ecPubkeyTweakMul pubkey none = ⟨0, 1, pubkey⟩ := by
  cases pubkey <;> exact ⟨rfl, rfl⟩

/-- A tweak above the group order makes the function return 0 before it looks at the key. -/
theorem C40_ec_pubkey_tweak_mul (pubkey tweak : Option Bytes) :
    Reports (pubkey = none ∨ tweak = none ∨
        ∃ b t, pubkey = some b ∧ tweak = some t ∧ beNat (t.take 32) < n ∧ NoKey b) (Kept pubkey)
      (ecPubkeyTweakMul pubkey tweak) := by
  have h : ∀ t : Bytes, (scSetB32 t).2 = false ↔ beNat (t.take 32) < n := by
    intro t; simp [scSetB32]
  cases pubkey <;> cases tweak <;> simp only [ecPubkeyTweakMul, load_iff, Bool.not_eq_true', h] <;>
    (try split_ifs) <;> leaf

/-- The key list of `secp256k1_ec_pubkey_combine` when every entry holds a key. -/
theorem C40_ec_pubkey_combine (pubkey : Option Bytes) (keys : Option (List (Option Bytes))) (k : ℕ)
    (hk : ∀ l, keys = some l → ∀ b, some b ∈ l → ¬ NoKey b) :
    Reports (pubkey = none ∨ k = 0 ∨ keys = none ∨ ∃ l, keys = some l ∧ none ∈ l.take k)
      (Kept pubkey) (ecPubkeyCombine pubkey keys k) := by
  have loop : ∀ (l : List (Option Bytes)) (q : Gej Fp), (∀ b, some b ∈ l → ¬ NoKey b) →
      (none ∈ l ∧ ecPubkeyCombineLoop l q 0 = (none, 1)) ∨
        (none ∉ l ∧ ∃ q', ecPubkeyCombineLoop l q 0 = (some q', 0)) := by
    intro l
    induction l with
    | nil => intro q _; exact Or.inr ⟨by simp, q, rfl⟩
    | cons a l ih =>
      intro q hl
      cases a with
      | none => exact Or.inl ⟨by simp, rfl⟩
      | some b =>
        have hb : (pubkeyLoad b).2 = true := (load_iff b).2 (hl b (by simp))
        simp only [ecPubkeyCombineLoop, hb, if_true]
        rcases ih (gejAddGe q (pubkeyLoad b).1) (fun b' hb' => hl b' (by simp [hb'])) with h | h
        · exact Or.inl ⟨by simp [h.1], h.2⟩
        · exact Or.inr ⟨by simp [h.1], h.2⟩
  cases pubkey with
  | none => simp only [ecPubkeyCombine]; leaf
  | some pk =>
    by_cases h1 : k ≥ 1
    · cases keys with
      | none => simp only [ecPubkeyCombine]; rw [if_neg (not_not.2 h1)]; leaf
      | some l =>
        simp only [ecPubkeyCombine]
        rw [if_neg (not_not.2 h1)]
        rcases loop (l.take k) gejInfinity
          (fun b hb => hk l rfl b (List.mem_of_mem_take hb)) with ⟨h, e⟩ | ⟨h, q, e⟩
        · rw [e]; exact reports_bad (by simp [h]) (by keeps)
        · rw [e]
          have hb : ¬ (some pk = none ∨ k = 0 ∨ some l = none ∨ ∃ l', some l = some l' ∧ none ∈ l'.take k) := by
            rintro (h' | h' | h' | ⟨l', h', h''⟩)
            · cases h'
            · omega
            · cases h'
            · cases h'; exact h h''
          dsimp only
          split
          · exact reports_ok hb
          · exact reports_ok hb
    · simp only [ecPubkeyCombine]; rw [if_pos h1]
      exact reports_arg (Or.inr (Or.inl (by omega))) (by keeps)

/-! ## Contexts and hashing -/

theorem C40_context_randomize (ctx : Ctx) (seed : Option Bytes) :
    Reports (ecmultGenIsBuilt ctx.gen = false) (fun c => c = ctx) (contextRandomize ctx seed) := by
  simp only [contextRandomize]
  cases h : ecmultGenIsBuilt ctx.gen
  · exact reports_arg rfl rfl
  · exact reports_ok (by simp)

theorem C40_context_clone (ctx : Ctx) :
    Reports (ecmultGenIsBuilt ctx.gen = false) (fun c => c = none) (contextClone ctx) := by
  cases h : ecmultGenIsBuilt ctx.gen
  · simp only [contextClone, contextIsProper, h]; exact reports_arg trivial rfl
  · simp only [contextClone, contextPreallocatedCloneSize, contextPreallocatedClone, contextIsProper, h]
    exact Or.inr ⟨by simp, rfl⟩

theorem C40_context_preallocated_clone (ctx : Ctx) (prealloc : Bool) :
    Reports (prealloc = false ∨ ecmultGenIsBuilt ctx.gen = false) (fun c => c = none)
      (contextPreallocatedClone ctx prealloc) := by
  have e : contextPreallocatedClone ctx prealloc =
      if (!prealloc) = true then .argFail none
      else if (!ecmultGenIsBuilt ctx.gen) = true then .argFail none else ⟨1, 0, some ctx⟩ := rfl
  rw [e]
  split_ifs with h1 h2
  · exact reports_arg (Or.inl (by simpa using h1)) rfl
  · exact reports_arg (Or.inr (by simpa using h2)) rfl
  · exact reports_ok (by simp_all)

/-- Flags that are not of the context type, or that ask for the test-only mode. -/
theorem C40_context_preallocated_create (junk : Ctx) (flags : UInt32) :
    Reports (flags &&& 0xff ≠ 1 ∨ flags &&& 0x400 ≠ 0) (fun c => c = none)
      (contextPreallocatedCreate junk flags) := by
  have h1 : flagsTypeMask = 0xff := rfl
  have h2 : flagsTypeContext = 1 := rfl
  have h3 : flagsBitContextDeclassify = 0x400 := rfl
  simp only [contextPreallocatedCreate, contextPreallocatedSize, h1, h2, h3]
  by_cases a : flags &&& 0xff = 1
  · by_cases b : flags &&& 0x400 = 0
    · rw [if_neg (not_not.2 a), if_neg (not_not.2 b)]
      exact Or.inr ⟨by simp [a, b], rfl⟩
    · rw [if_neg (not_not.2 a), if_pos b]; exact reports_bad (Or.inr b) rfl
  · rw [if_pos a]; exact reports_bad (Or.inl a) rfl

/-- `secp256k1_context_create` with bad flags calls the callback twice (once for the size, once for the
creation) and returns NULL. -/
theorem C40_context_create (junk : Ctx) (flags : UInt32) :
    if flags &&& 0xff ≠ 1 ∨ flags &&& 0x400 ≠ 0 then contextCreate junk flags = ⟨0, 2, none⟩
    else (contextCreate junk flags).illegal = 0 := by
  have h1 : flagsTypeMask = 0xff := rfl
  have h2 : flagsTypeContext = 1 := rfl
  have h3 : flagsBitContextDeclassify = 0x400 := rfl
  simp only [contextCreate, contextPreallocatedCreate, contextPreallocatedSize, h1, h2, h3]
  by_cases a : flags &&& 0xff = 1
  · by_cases b : flags &&& 0x400 = 0
    · rw [if_neg (by simp [a, b]), if_neg (not_not.2 a), if_neg (not_not.2 b)]; rfl
    · rw [if_pos (Or.inr b), if_neg (not_not.2 a), if_pos b]; rfl
  · rw [if_pos (Or.inl a), if_pos a]; rfl

theorem C40_context_destroy (ctx : Ctx) :
    Reports (ecmultGenIsBuilt ctx.gen = false) (fun c => c = some ctx) (contextDestroy ctx) := by
  cases h : ecmultGenIsBuilt ctx.gen
  · simp only [contextDestroy, contextIsProper, h]; exact reports_arg trivial rfl
  · simp only [contextDestroy, contextPreallocatedDestroy, contextIsProper, h]
    exact Or.inr ⟨by simp, rfl⟩

theorem C40_context_set_callbacks (isStatic : Bool) (ctx : Ctx) (fn data : ℕ) :
    Reports (isStatic = true) (fun c => c = ctx) (contextSetIllegalCallback isStatic ctx fn data) ∧
    Reports (isStatic = true) (fun c => c = ctx) (contextSetErrorCallback isStatic ctx fn data) := by
  cases isStatic
  · exact ⟨reports_ok (by simp), reports_ok (by simp)⟩
  · exact ⟨reports_arg rfl rfl, reports_arg rfl rfl⟩

theorem C40_tagged_sha256 (hash tag msg : Option Bytes) :
    Reports (hash = none ∨ tag = none ∨ msg = none) (Kept hash) (taggedSha256 hash tag msg) := by
  cases hash <;> cases tag <;> cases msg <;> simp only [taggedSha256] <;> leaf

/-! ## ECDSA -/

theorem C40_ecdsa_signature_parse_der (sig input : Option Bytes) :
    ReportsLoop (sig = none ∨ input = none) (Kept sig) (ecdsaSignatureParseDer sig input) := by
  cases sig <;> cases input <;> simp only [ecdsaSignatureParseDer] <;> (try split) <;> leafLoop

theorem C40_ecdsa_signature_parse_compact (sig input : Option Bytes) :
    Reports (sig = none ∨ input = none) (Kept sig) (ecdsaSignatureParseCompact sig input) := by
  cases sig <;> cases input <;> simp only [ecdsaSignatureParseCompact] <;> (try split_ifs) <;> leaf

theorem C40_ecdsa_signature_serialize_der (output : Option Bytes) (len : Option ℕ) (sig : Option Bytes) :
    Reports (output = none ∨ len = none ∨ sig = none) (fun v => Kept output v.1 ∧ KeptNum len v.2)
      (ecdsaSignatureSerializeDer output len sig) := by
  cases output <;> cases len <;> cases sig <;> simp only [ecdsaSignatureSerializeDer] <;> leaf

theorem C40_ecdsa_signature_serialize_compact (output sig : Option Bytes) :
    Reports (output = none ∨ sig = none) (Kept output) (ecdsaSignatureSerializeCompact output sig) := by
  cases output <;> cases sig <;> simp only [ecdsaSignatureSerializeCompact] <;> leaf

theorem C40_ecdsa_signature_normalize (sigout sigin : Option Bytes) :
    Reports (sigin = none) (Kept sigout) (ecdsaSignatureNormalize sigout sigin) := by
  cases sigin <;> cases sigout <;> simp only [ecdsaSignatureNormalize] <;> leaf

/-- A signature with a high `s` makes the function return 0 before it looks at the key. -/
theorem C40_ecdsa_verify (sig msghash pubkey : Option Bytes) :
    Reports (sig = none ∨ msghash = none ∨ pubkey = none ∨
        ∃ b s, pubkey = some b ∧ sig = some s ∧ leNat ((s.drop 32).take 32) % n ≤ n / 2 ∧ NoKey b)
      (fun _ => True) (ecdsaVerify sig msghash pubkey) := by
  have h : ∀ s : Bytes, scIsHigh (signatureLoad s).2 = false ↔ leNat ((s.drop 32).take 32) % n ≤ n / 2 := by
    intro s
    simp [scIsHigh, signatureLoad, ZMod.val_natCast]
  have key : Reports (sig = none ∨ msghash = none ∨ pubkey = none ∨
        ∃ b s, pubkey = some b ∧ sig = some s ∧ scIsHigh (signatureLoad s).2 = false ∧ NoKey b)
      (fun _ => True) (ecdsaVerify sig msghash pubkey) := by
    clear h
    cases sig <;> cases msghash <;> cases pubkey <;> simp only [ecdsaVerify] <;>
      (try split_ifs) <;> leaf
  simpa only [h] using key

theorem C40_ecdsa_sign (fuel : ℕ) (ctx : Ctx) (sig msghash seckey : Option Bytes)
    (noncefp : Option NonceFn) (data : Option Bytes) :
    ReportsLoop (sig = none ∨ msghash = none ∨ seckey = none ∨ ecmultGenIsBuilt ctx.gen = false)
      (Kept sig) (ecdsaSign fuel ctx sig msghash seckey noncefp data) := by
  cases sig <;> cases msghash <;> cases seckey <;> simp only [ecdsaSign] <;> (try split_ifs) <;>
    (try split) <;> leafLoop

theorem C40_ecdsa_recoverable_signature_parse_compact (sig input : Option Bytes) (recid : Int) :
    Reports (sig = none ∨ input = none ∨ recid < 0 ∨ 3 < recid) (Kept sig)
      (recoverableParseCompact sig input recid) := by
  cases sig with
  | none => leaf
  | some s =>
    cases input with
    | none => leaf
    | some i =>
      simp only [recoverableParseCompact]
      by_cases h : recid ≥ 0 ∧ recid ≤ 3
      · rw [if_neg (not_not.2 h)]
        have : ¬ (some s = none ∨ some i = none ∨ recid < 0 ∨ 3 < recid) := by simp; omega
        split
        · exact reports_ok this
        · exact reports_ok this
      · rw [if_pos h]
        exact reports_arg (Or.inr (Or.inr (by omega))) (by keeps)

theorem C40_ecdsa_recoverable_signature_serialize_compact (output : Option Bytes) (recid : Option Int)
    (sig : Option Bytes) :
    Reports (output = none ∨ recid = none ∨ sig = none) (fun v => Kept output v.1 ∧ KeptNum recid v.2)
      (recoverableSerializeCompact output recid sig) := by
  cases output <;> cases recid <;> cases sig <;> simp only [recoverableSerializeCompact] <;> leaf

theorem C40_ecdsa_recoverable_signature_convert (sig sigin : Option Bytes) :
    Reports (sig = none ∨ sigin = none) (Kept sig) (recoverableConvert sig sigin) := by
  cases sig <;> cases sigin <;> simp only [recoverableConvert] <;> leaf

theorem C40_ecdsa_sign_recoverable (fuel : ℕ) (ctx : Ctx) (sig msghash seckey : Option Bytes)
    (noncefp : Option NonceFn) (data : Option Bytes) :
    ReportsLoop (sig = none ∨ msghash = none ∨ seckey = none ∨ ecmultGenIsBuilt ctx.gen = false)
      (Kept sig) (ecdsaSignRecoverable fuel ctx sig msghash seckey noncefp data) := by
  cases sig <;> cases msghash <;> cases seckey <;> simp only [ecdsaSignRecoverable] <;> (try split_ifs) <;>
    (try split) <;> leafLoop

theorem C40_ecdsa_recover (pubkey sig msghash : Option Bytes) :
    Reports (pubkey = none ∨ sig = none ∨ msghash = none) (Kept pubkey)
      (ecdsaRecover pubkey sig msghash) := by
  cases pubkey <;> cases sig <;> cases msghash <;> simp only [ecdsaRecover] <;> (try split) <;> leaf

/-! ## Key exchange -/

/-- With a key object that holds a key. -/
theorem C40_ecdh (output point scalar : Option Bytes) (hashfp : Option EcdhHash)
    (hp : ∀ b, point = some b → ¬ NoKey b) :
    Reports (output = none ∨ point = none ∨ scalar = none) (Kept output)
      (ecdh output point scalar hashfp) := by
  cases output with
  | none => exact reports_arg (Or.inl rfl) trivial
  | some o =>
    cases point with
    | none => exact reports_arg (Or.inr (Or.inl rfl)) (kept_refl _)
    | some p =>
      cases scalar with
      | none => exact reports_arg (Or.inr (Or.inr rfl)) (kept_refl _)
      | some s =>
        simp only [ecdh]
        rw [if_pos ((load_iff p).2 (hp p rfl))]
        exact reports_ok (by simp)

theorem C40_ellswift_encode (fuel : ℕ) (ell pubkey rnd : Option Bytes) :
    ReportsLoop (ell = none ∨ pubkey = none ∨ rnd = none ∨ ∃ b, pubkey = some b ∧ NoKey b) (Kept ell)
      (ellswiftEncode fuel ell pubkey rnd) := by
  cases ell <;> cases pubkey <;> cases rnd <;> simp only [ellswiftEncode] <;> (try split_ifs) <;>
    (try split) <;> leafLoop

theorem C40_ellswift_create (ctx : Ctx) (fuel : ℕ) (ell seckey aux : Option Bytes) :
    ReportsLoop (ell = none ∨ seckey = none ∨ ecmultGenIsBuilt ctx.gen = false) (Kept ell)
      (ellswiftCreate ctx fuel ell seckey aux) := by
  cases ell <;> cases seckey <;> simp only [ellswiftCreate] <;> (try split_ifs) <;> (try split) <;> leafLoop

theorem C40_ellswift_decode (pubkey ell : Option Bytes) :
    Reports (pubkey = none ∨ ell = none) (Kept pubkey) (ellswiftDecode pubkey ell) := by
  cases pubkey <;> cases ell <;> simp only [ellswiftDecode] <;> leaf

theorem C40_ellswift_xdh (output ellA ellB seckey : Option Bytes) (party : Int)
    (hashfp : Option EllswiftHash) :
    Reports (output = none ∨ ellA = none ∨ ellB = none ∨ seckey = none ∨ hashfp = none) (Kept output)
      (ellswiftXdh output ellA ellB seckey party hashfp) := by
  cases output <;> cases ellA <;> cases ellB <;> cases seckey <;> cases hashfp <;>
    simp only [ellswiftXdh] <;> leaf

/-! ## Functions that go on after the callback

`secp256k1_ec_pubkey_cmp`, `secp256k1_xonly_pubkey_cmp` and `secp256k1_ec_pubkey_sort` have no return
value for a failure; `secp256k1_ec_pubkey_combine` and `secp256k1_ecdh` ignore the result of loading a
key. -/

/-- A pointer to a key object that is NULL or whose object holds no key. -/
def Unreadable (k : Option Bytes) : Prop := k = none ∨ ∃ b, k = some b ∧ NoKey b

theorem cmpKey_bad {k : Option Bytes} (h : Unreadable k) : ecPubkeyCmpKey k = (zeros 33, 1) := by
  have := C40_ec_pubkey_serialize (some (zeros 33)) (some 33) k ecCompressed
  rcases this with ⟨-, h1, h2, -⟩ | ⟨h1, -⟩
  · simp only [ecPubkeyCmpKey, h2, h1, if_true]
  · exfalso
    apply h1
    rcases h with h | h
    · exact Or.inr (Or.inr (Or.inl h))
    · exact Or.inr (Or.inr (Or.inr (Or.inr (Or.inr h))))

theorem cmpKey_good {k : Option Bytes} (h : ¬ Unreadable k) :
    ∃ t x, (t = 2 ∨ t = 3) ∧ ecPubkeyCmpKey k = (t :: x, 0) := by
  cases k with
  | none => exact absurd (Or.inl rfl) h
  | some b =>
    have hl : (pubkeyLoad b).2 = true := (load_iff b).2 fun h' => h (Or.inr ⟨b, rfl, h'⟩)
    have hi : (pubkeyLoad b).1.infinity = false := rfl
    have e : ecPubkeySerialize (some (zeros 33)) (some 33) (some b) ecCompressed =
        (let q := pubkeyLoad b
         if q.2 then
           let r := eckeyPubkeySerialize q.1 (put (zeros 33) 0 (zeros 33)) 33 true
           if r.2.2 then ⟨1, 0, (some r.1, some r.2.1)⟩ else ⟨0, 0, (some r.1, some 0)⟩
         else ⟨0, 1, (some (put (zeros 33) 0 (zeros 33)), some 0)⟩) := rfl
    have e' : ecPubkeySerialize (some (zeros 33)) (some 33) (some b) ecCompressed =
        ⟨1, 0, (some ((if feIsOdd (FeOps.normalize (pubkeyLoad b).1.y) then tagOdd else tagEven) ::
          (put (put (zeros 33) 0 (zeros 33)) 1
            (feGetB32 (FeOps.normalize (pubkeyLoad b).1.x))).drop 1), some 33)⟩ := by
      rw [e]
      have hp : ∀ (c : Bytes) (t : UInt8), put c 0 [t] = t :: c.drop 1 := by intro c t; simp [put]
      simp only [hl, if_true, eckeyPubkeySerialize, hi, Bool.false_eq_true, if_false, hp]
    generalize ht : (if feIsOdd (FeOps.normalize (pubkeyLoad b).1.y) then tagOdd else tagEven) = t at e'
    generalize (put (put (zeros 33) 0 (zeros 33)) 1 (feGetB32 (FeOps.normalize (pubkeyLoad b).1.x))).drop 1
      = x at e'
    refine ⟨t, x, ?_, ?_⟩
    · rw [← ht]
      split
      · exact Or.inr rfl
      · exact Or.inl rfl
    · simp only [ecPubkeyCmpKey, e']
      rfl

/-- `secp256k1_ec_pubkey_cmp`: an unreadable key calls the callback once and is compared as 33 zero
bytes, so as smaller than every readable key. -/
theorem C40_ec_pubkey_cmp (a b : Option Bytes) :
    (¬ Unreadable a ∧ ¬ Unreadable b → (ecPubkeyCmp a b).illegal = 0) ∧
    (Unreadable a ∧ ¬ Unreadable b → (ecPubkeyCmp a b).illegal = 1 ∧ (ecPubkeyCmp a b).ret < 0) ∧
    (¬ Unreadable a ∧ Unreadable b → (ecPubkeyCmp a b).illegal = 1 ∧ 0 < (ecPubkeyCmp a b).ret) ∧
    (Unreadable a ∧ Unreadable b → (ecPubkeyCmp a b).illegal = 2 ∧ (ecPubkeyCmp a b).ret = 0) := by
  have hz : zeros 33 = 0 :: zeros 32 := rfl
  refine ⟨?_, ?_, ?_, ?_⟩ <;> rintro ⟨ha, hb⟩
  · obtain ⟨t, x, -, e⟩ := cmpKey_good ha
    obtain ⟨t', x', -, e'⟩ := cmpKey_good hb
    simp only [ecPubkeyCmp, e, e']
  · obtain ⟨t', x', ht, e'⟩ := cmpKey_good hb
    simp only [ecPubkeyCmp, cmpKey_bad ha, e']
    refine ⟨trivial, ?_⟩
    rw [hz, memcmpVar_cons]
    rcases ht with rfl | rfl <;> rw [if_pos (by decide)] <;> decide
  · obtain ⟨t', x', ht, e'⟩ := cmpKey_good ha
    simp only [ecPubkeyCmp, cmpKey_bad hb, e']
    refine ⟨trivial, ?_⟩
    rw [hz, memcmpVar_cons]
    rcases ht with rfl | rfl <;> rw [if_pos (by decide)] <;> decide
  · simp only [ecPubkeyCmp, cmpKey_bad hb, cmpKey_bad ha]
    refine ⟨trivial, by decide⟩

open Classical in
/-- `secp256k1_ec_pubkey_combine`: every object without a key calls the callback, and the sum goes on. -/
theorem C40_ec_pubkey_combine_unreadable (old : Bytes) (b : Bytes) (l : List Bytes) :
    (ecPubkeyCombine (some old) (some ((b :: l).map some)) (l.length + 1)).illegal =
      (b :: l).countP (fun b => NoKey b) := by
  have loop : ∀ (l : List Bytes) (q : Gej Fp) (k : ℕ),
      ∃ q', ecPubkeyCombineLoop (l.map some) q k = (some q', k + l.countP (fun b => NoKey b)) := by
    intro l
    induction l with
    | nil => intro q k; exact ⟨q, rfl⟩
    | cons a l ih =>
      intro q k
      simp only [List.map_cons, ecPubkeyCombineLoop, List.countP_cons]
      obtain ⟨q', e⟩ := ih (gejAddGe q (pubkeyLoad a).1) (if (pubkeyLoad a).2 then k else k + 1)
      refine ⟨q', ?_⟩
      rw [e]
      by_cases h : NoKey a
      · simp [(load_false a).2 h, h]; omega
      · simp [(load_iff a).2 h, h]
  obtain ⟨q, e⟩ := loop (b :: l) gejInfinity 0
  simp only [ecPubkeyCombine]
  rw [if_neg (by omega), List.take_of_length_le (by simp), e]
  dsimp only
  split <;> simp

/-- `secp256k1_ecdh` on an object without a key: the callback is called once, but the function goes on,
calls the hash function, and returns 1 if that does and the scalar is valid. -/
theorem C40_ecdh_unreadable (out : Bytes) {point scalar : Bytes} (h : NoKey point)
    (h1 : 1 ≤ beNat (scalar.take 32)) (hn : beNat (scalar.take 32) < n) :
    (ecdh (some out) (some point) (some scalar) none).ret = 1 ∧
      (ecdh (some out) (some point) (some scalar) none).illegal = 1 := by
  have h2 : (scSetB32 scalar).2 = false := (scSetB32_ok hn).1
  have h3 : scIsZero (scSetB32 scalar).1 = false := by
    have := (scSetB32_ok hn).2
    rw [scIsZero, this]; simp; omega
  simp only [ecdh, (load_false point).2 h, h2, h3, ecdhHashOrDefault, ecdhHashSha256]
  exact ⟨rfl, rfl⟩

/-- The two functions are exceptions to the rule: the all-zero object, which the library leaves behind
in a failing call, makes `secp256k1_ecdh` report an illegal argument and nevertheless return 1. -/
theorem C40_ecdh_exception : ¬ ∀ output point scalar hashfp,
    Reports (output = none ∨ point = none ∨ scalar = none ∨ ∃ b, point = some b ∧ NoKey b) (Kept output)
      (ecdh output point scalar hashfp) := by
  intro h
  have h1 := h (some (zeros 32)) (some (zeros 64)) (some (beBytes 32 1)) none
  have hk : NoKey (zeros 64) := by unfold NoKey; decide +kernel
  obtain ⟨r, i⟩ := C40_ecdh_unreadable (zeros 32) hk (scalar := beBytes 32 1) (by decide +kernel)
    (by decide +kernel)
  rcases h1 with ⟨-, -, h2, -⟩ | ⟨h2, -⟩
  · rw [r] at h2; cases h2
  · exact h2 (Or.inr (Or.inr (Or.inr ⟨_, rfl, hk⟩)))

/-- Both kinds of arguments occur: a NULL message, and a complete call. -/
example : Reports True (Kept (some (zeros 32))) (taggedSha256 (some (zeros 32)) (some []) none) ∧
    (taggedSha256 (some (zeros 32)) (some []) (some [])).ret = 1 ∧
    NoKey (zeros 64) ∧ ¬ NoKey (keyObject G) := by
  refine ⟨Or.inl ⟨trivial, rfl, rfl, kept_refl _⟩, rfl, by unfold NoKey; decide +kernel, ?_⟩
  rw [← load_iff]
  exact (pubkeyLoad_obj G_ne_zero).1

end Secp
