import Verif.Model.Examples
import Verif.Props.C02
import Verif.Props.C07
import Verif.Props.C10
import Verif.Props.C11
import Verif.Props.C12
import Verif.Props.C21
import Verif.Props.C38Same
import Verif.Props.C39
import Verif.Props.C28

/-!
# C79: the example programs do what they are meant to show
-/

namespace Secp
open Model Spec

theorem taggedHash_len (t m : Bytes) : (taggedHash t m).length = 32 := Hash.sha_length _

seal keyObject sigObject beBytes compressed exampleMsgHash taggedHash sha256

@[simp] theorem run_ok {α β : Type} (a : α) (f : α → Run β) : ((Except.ok a : Run α) >>= f) = f a := rfl

@[simp] theorem run_error {α β : Type} (e : End) (f : α → Run β) :
    ((Except.error e : Run α) >>= f) = .error e := rfl

@[simp] theorem run_pure {α β : Type} (a : α) (f : α → Run β) : ((pure a : Run α) >>= f) = f a := rfl

@[simp] theorem call_legal {α : Type} (r : Int) (v : α) : call ⟨r, 0, v⟩ = .ok (r, v) := rfl

@[simp] theorem callLoop_some {α : Type} (o : Out α) : callLoop (some o) = call o := rfl

@[simp] theorem callLoop_none {α : Type} : callLoop (none : Option (Out α)) = .error .running := rfl

@[simp] theorem assertThat_true : assertThat true = .ok () := rfl

@[simp] theorem orExit_one : orExit 1 = .ok () := rfl

@[simp] theorem orExit_zero : orExit 0 = .error .exitFailure := rfl

@[simp] theorem fillRandom_some (b : Bytes) : fillRandom (some b) = .ok b := rfl

@[simp] theorem fillRandom_none : fillRandom none = .error .exitFailure := rfl

/-- A program can make its context. -/
theorem newContext_ok {junk : Ctx} (hc : junk.gen.cfg.Build) :
    ∃ ctx, newContext junk = .ok ctx ∧ LiveCtx ctx := by
  obtain ⟨h1, h2, -⟩ := (C39_create junk flagsTypeContext).1 (by decide)
  obtain ⟨ctx, h⟩ := Option.isSome_iff_exists.1 h1
  refine ⟨ctx, ?_, LiveCtx.create hc h⟩
  rw [newContext, call, if_pos h2, run_ok]
  simp only [h]

/-- Randomizing the new context never fails. -/
theorem newRandomized_some {junk : Ctx} (hc : junk.gen.cfg.Build) (b : Bytes) :
    ∃ ctx, newRandomized junk (some b) = .ok ctx ∧ LiveCtx ctx := by
  obtain ⟨ctx, h, hl⟩ := newContext_ok hc
  obtain ⟨h1, h2, h3⟩ := C38_randomize_succeeds hl (some b)
  refine ⟨_, ?_, h3⟩
  rw [newRandomized, h, run_ok, fillRandom_some, run_ok, call, if_pos h2, run_ok, h1]
  rfl

theorem newRandomized_none {junk : Ctx} (hc : junk.gen.cfg.Build) :
    newRandomized junk none = .error .exitFailure := by
  obtain ⟨ctx, h, hl⟩ := newContext_ok hc
  rw [newRandomized, h, run_ok, fillRandom_none, run_error]

/-- Destroying the context is legal. -/
theorem destroy_ok {ctx : Ctx} (h : LiveCtx ctx) : ∃ v, call (contextDestroy ctx) = .ok v := by
  obtain ⟨-, -, -, -, -, -, h1, -⟩ := C39_live_supports h
  exact ⟨_, by rw [call, if_pos h1]⟩

/-- A string of bytes the programs take as secret key. -/
def GoodKey (b : Bytes) : Prop := 1 ≤ beNat b ∧ beNat b < n

/-- A secret key of 32 bytes the programs reject, or no randomness for one. -/
def NoKey (k : Option Bytes) : Prop := k = none ∨ ∃ sk, k = some sk ∧ ¬ GoodKey sk

theorem seckeyVerify_good {b : Bytes} (hl : b.length = 32) (h : GoodKey b) :
    ecSeckeyVerify (some b) = ⟨1, 0, ()⟩ :=
  (C16_seckey_verify hl).1.2 ⟨h.1, by have := h.2; omega⟩

theorem seckeyVerify_bad {b : Bytes} (hl : b.length = 32) (h : ¬ GoodKey b) :
    ecSeckeyVerify (some b) = ⟨0, 0, ()⟩ := by
  refine (C16_seckey_verify hl).2.2 ?_
  by_contra hc
  exact h ⟨by omega, by omega⟩

theorem goodKey_ne {b : Bytes} (h : GoodKey b) : beNat b • G ≠ 0 := by
  rw [← natCast_smul]
  exact smul_G_ne (cast_ne_zero (by have := h.1; omega) h.2)

theorem serialize33 {P : Pt} (hP : P ≠ 0) {out : Bytes} (ho : out.length = 33) :
    ecPubkeySerialize (some out) (some 33) (some (keyObject P)) ecCompressed =
      ⟨1, 0, (some (compressed P), some 33)⟩ := by
  rw [C02_serialize_compressed hP out (Nat.le_refl 33) (by omega), List.drop_of_length_le (by omega)]
  simp

theorem parse33 {P : Pt} (hP : P ≠ 0) (old : Bytes) :
    ecPubkeyParse (some old) (some (compressed P)) = ⟨1, 0, some (keyObject P)⟩ := by
  obtain ⟨o, l, h1, h2⟩ := C02_parse_serialize hP old (zeros 33) (len := 33) (by simp [zeros])
    (flags := ecCompressed) (Or.inl ⟨rfl, Nat.le_refl _⟩)
  rw [serialize33 hP (by simp [zeros])] at h1
  obtain ⟨h3, h4⟩ := Prod.mk.inj (congrArg Out.val h1)
  obtain rfl := Option.some.inj h3
  obtain rfl := Option.some.inj h4
  rwa [List.take_of_length_le (by rw [compressed_length])] at h2

/-- The nonce that `ecdsa_sign` takes in the `j`-th attempt by default. -/
abbrev defaultNonce (msg seckey : Bytes) (j : ℕ) : Spec.NonceCall :=
  nonceFunctionRfc6979 msg seckey none none (UInt32.ofNat j)

/-- Signing with the default nonce function and a good key succeeds whenever it ends. -/
theorem sign_default {ctx : Ctx} (hctx : LiveCtx ctx) {fuel : ℕ} {msg sk : Bytes} (hm : msg.length = 32)
    (hk : sk.length = 32) (hg : GoodKey sk) (old : Bytes) {o : Out (Option Bytes)}
    (h : ecdsaSign fuel ctx (some old) (some msg) (some sk) none none = some o) :
    ∃ j k, (∀ l < j, NonceSkipped ((beNat sk : ℕ) : Fn) (msgScalar msg) (defaultNonce msg sk l)) ∧
      NonceUsable ((beNat sk : ℕ) : Fn) (msgScalar msg) (defaultNonce msg sk j) k ∧
      o = ⟨1, 0, some (sigObject (ecdsaR k) (lowS (ecdsaS ((beNat sk : ℕ) : Fn) (msgScalar msg) k)))⟩ := by
  obtain ⟨j, h1, h2⟩ := C11_sign_result hctx hm hk hg.1 hg.2 (fun _ => nonceFunctionRfc6979) none old
    (C12_default fuel ctx (some old) (some msg) (some sk) none ▸ h)
  rcases h2 with ⟨⟨b, hb⟩, -⟩ | ⟨k, h2, h3⟩
  · exfalso
    change nonceFunctionRfc6979 _ _ _ _ _ = _ at hb
    unfold nonceFunctionRfc6979 at hb
    split at hb
    · cases hb
    · have := (Prod.mk.inj (Option.some.inj hb)).1
      exact absurd this one_ne_zero
  · exact ⟨j, k, h1, h2, h3⟩

theorem exampleMsgHash_len : exampleMsgHash.length = 32 := by decide +kernel

/-- `examples/ecdsa.c`.  Without randomness or with an invalid secret key the program ends with
`EXIT_FAILURE`.  Otherwise no assertion fails and no call is illegal: the program prints the compressed
public key and the ECDSA signature made with the first usable RFC 6979 nonce, which is a valid signature
with low `s`, and prints that it is valid; or it is still searching for a nonce in `ecdsa_sign`. -/
theorem C79_ecdsa {junk : Ctx} (hc : junk.gen.cfg.Build) {u : ℕ → ℕ → Bytes}
    (hu : ∀ i k, (u i k).length = k) (fuel : ℕ) (randomize : Option Bytes) {seckey : Option Bytes}
    (hs : ∀ b, seckey = some b → b.length = 32) :
    (randomize = none ∨ NoKey seckey →
      exampleEcdsa fuel junk u randomize seckey = .error .exitFailure) ∧
    (∀ rb sk, randomize = some rb → seckey = some sk → GoodKey sk →
      let d : Fn := (beNat sk : ℕ)
      let z := msgScalar exampleMsgHash
      ((∀ ctx, LiveCtx ctx →
          ecdsaSign fuel ctx (some (u 2 64)) (some exampleMsgHash) (some sk) none none = none) ∧
        exampleEcdsa fuel junk u randomize seckey = .error .running) ∨
      ∃ j k r s, (∀ l < j, NonceSkipped d z (defaultNonce exampleMsgHash sk l)) ∧
        NonceUsable d z (defaultNonce exampleMsgHash sk j) k ∧
        r = ecdsaR k ∧ s = lowS (ecdsaS d z k) ∧
        EcdsaValid (beNat sk • G) z r s ∧ s.val ≤ (n - 1) / 2 ∧
        exampleEcdsa fuel junk u randomize seckey =
          .ok ⟨1, sk, compressed (beNat sk • G), beBytes 32 r.val ++ beBytes 32 s.val⟩) := by
  refine ⟨fun h => ?_, ?_⟩
  · unfold exampleEcdsa
    cases randomize with
    | none => rw [newRandomized_none hc, run_error]
    | some rb =>
      obtain ⟨ctx, h1, -⟩ := newRandomized_some hc rb
      rw [h1, run_ok]
      cases seckey with
      | none => rw [fillRandom_none, run_error]
      | some sk =>
        rcases h with h | h | ⟨sk', h, hb⟩
        · cases h
        · cases h
        · obtain rfl := Option.some.inj h
          rw [fillRandom_some, run_ok, seckeyVerify_bad (hs _ rfl) hb, call_legal, run_ok]
          rfl
  · rintro rb sk rfl rfl hg d z
    have hl := hs _ rfl
    obtain ⟨ctx, h1, hctx⟩ := newRandomized_some hc rb
    have hP := goodKey_ne hg
    unfold exampleEcdsa
    rw [h1, run_ok, fillRandom_some, run_ok, seckeyVerify_good hl hg, call_legal, run_ok]
    simp only [orExit_one, run_ok]
    rw [C16_pubkey_create hctx _ hl hg.1 hg.2, call_legal, run_ok]
    simp only [ne_eq, one_ne_zero, not_false_eq_true, decide_true, assertThat_true, run_ok]
    rw [serialize33 hP (hu 1 33), call_legal, run_ok]
    simp only [ne_eq, one_ne_zero, not_false_eq_true, decide_true, assertThat_true, run_ok]
    cases hsg : ecdsaSign fuel ctx (some (u 2 64)) (some exampleMsgHash) (some sk) none none with
    | none =>
      refine Or.inl ⟨fun ctx' h' => ?_, rfl⟩
      rw [(C38_ecdsa_sign_same h' hctx fuel _ _ _ _ _).1]
      exact hsg
    | some o =>
      obtain ⟨j, k, i1, i2, rfl⟩ := sign_default hctx exampleMsgHash_len hl hg _ hsg
      obtain ⟨pk, v1, v2, -⟩ := C10_sign_verifies hctx hctx exampleMsgHash_len hl none none _ [] hsg
      rw [C16_pubkey_create hctx _ hl hg.1 hg.2] at v1
      have v1 := Option.some.inj (congrArg Out.val v1)
      subst v1
      have v3 := (C09_verify_accepts hP _ _ exampleMsgHash_len).1 v2
      refine Or.inr ⟨j, k, _, _, i1, i2, rfl, rfl, v3.1, v3.2, ?_⟩
      have hser := C07_serialize_compact (ecdsaR k) (lowS (ecdsaS d z k)) (hu 3 64)
      rw [callLoop_some, call_legal, run_ok]
      simp only [ne_eq, one_ne_zero, not_false_eq_true, decide_true, assertThat_true, run_ok]
      rw [hser, call_legal, run_ok]
      simp only [ne_eq, one_ne_zero, not_false_eq_true, decide_true, assertThat_true, run_ok]
      rw [C07_serialize_parse _ _ _ (hu 3 64) hser, call_legal, run_ok]
      simp only [orExit_one, run_ok]
      rw [parse33 hP, call_legal, run_ok]
      simp only [orExit_one, run_ok]
      obtain ⟨w, hw⟩ := destroy_ok hctx
      rw [v2, call_legal, run_ok, hw, run_ok]
      rfl

theorem keypairCreate_good {ctx : Ctx} (hctx : LiveCtx ctx) (old : Bytes) {sk : Bytes} (hl : sk.length = 32)
    (hg : GoodKey sk) :
    keypairCreate ctx (some old) (some sk) = ⟨1, 0, some (keypairObject ((beNat sk : ℕ) : Fn))⟩ := by
  rw [C28_create hctx old hl hg.1 hg.2, keypairObject, ZMod.val_natCast, Nat.mod_eq_of_lt hg.2,
    show beBytes 32 (beNat sk) = sk from beNat_inj (by rw [Hash.beBytes_length, hl])
      (by rw [beNat_beBytes, Nat.mod_eq_of_lt (lt_trans hg.2 n_lt_256)])]

theorem keypairCreate_bad {ctx : Ctx} (hctx : LiveCtx ctx) (old : Bytes) {sk : Bytes} (hl : sk.length = 32)
    (hg : ¬ GoodKey sk) :
    keypairCreate ctx (some old) (some sk) = ⟨0, 0, some (List.replicate 96 0)⟩ := by
  refine C28_create_invalid hctx old hl ?_
  by_contra hc
  exact hg ⟨by omega, by omega⟩

theorem memcmp_self (a : Bytes) (k : ℕ) : memcmpVar a a k = 0 := by
  induction k generalizing a with
  | zero => rfl
  | succ k ih => simp [memcmpVar, ih]

/-- `examples/ecdh.c`.  Without randomness or with an invalid secret key the program ends with
`EXIT_FAILURE`.  Otherwise both parties get the same shared secret, the SHA-256 hash of the compressed
product of the keys, no assertion fails and no call is illegal. -/
theorem C79_ecdh {junk : Ctx} (hc : junk.gen.cfg.Build) {u : ℕ → ℕ → Bytes} (hu : ∀ i k, (u i k).length = k)
    (randomize : Option Bytes) {seckey1 seckey2 : Option Bytes}
    (hs1 : ∀ b, seckey1 = some b → b.length = 32) (hs2 : ∀ b, seckey2 = some b → b.length = 32) :
    (randomize = none ∨ NoKey seckey1 ∨ NoKey seckey2 →
      exampleEcdh junk u randomize seckey1 seckey2 = .error .exitFailure) ∧
    (∀ rb a b, randomize = some rb → seckey1 = some a → seckey2 = some b → GoodKey a → GoodKey b →
      exampleEcdh junk u randomize seckey1 seckey2 =
        .ok ⟨a, compressed (beNat a • G), b, compressed (beNat b • G),
          sha256 (compressed ((beNat a * beNat b) • G))⟩) := by
  refine ⟨fun h => ?_, ?_⟩
  · unfold exampleEcdh
    cases randomize with
    | none => rw [newRandomized_none hc, run_error]
    | some rb =>
      obtain ⟨ctx, h1, -⟩ := newRandomized_some hc rb
      rw [h1, run_ok]
      cases seckey1 with
      | none => rw [fillRandom_none, run_error]
      | some a =>
        cases seckey2 with
        | none => rw [fillRandom_some, run_ok, fillRandom_none, run_error]
        | some b =>
          rw [fillRandom_some, run_ok, fillRandom_some, run_ok]
          by_cases ha : GoodKey a
          · rw [seckeyVerify_good (hs1 _ rfl) ha, call_legal, run_ok]
            simp only [orExit_one, run_ok]
            rcases h with h | h | h
            · cases h
            · rcases h with h | ⟨sk, h, hb⟩
              · cases h
              · exact absurd ha (Option.some.inj h ▸ hb)
            · rcases h with h | ⟨sk, h, hb⟩
              · cases h
              · obtain rfl := Option.some.inj h
                rw [seckeyVerify_bad (hs2 _ rfl) hb, call_legal, run_ok]
                rfl
          · rw [seckeyVerify_bad (hs1 _ rfl) ha, call_legal, run_ok]
            rfl
  · rintro rb a b rfl rfl rfl ha hb
    obtain ⟨ctx, h1, hctx⟩ := newRandomized_some hc rb
    have la := hs1 _ rfl
    have lb := hs2 _ rfl
    have hA := goodKey_ne ha
    have hB := goodKey_ne hb
    have e1 : beNat a • beNat b • G = (beNat a * beNat b) • G := by rw [← mul_nsmul']
    have e2 : beNat b • beNat a • G = (beNat a * beNat b) • G := by rw [← mul_nsmul]
    unfold exampleEcdh
    rw [h1, run_ok, fillRandom_some, run_ok, fillRandom_some, run_ok, seckeyVerify_good la ha, call_legal,
      run_ok]
    simp only [orExit_one, run_ok]
    rw [seckeyVerify_good lb hb, call_legal, run_ok]
    simp only [orExit_one, run_ok]
    rw [C16_pubkey_create hctx _ la ha.1 ha.2, call_legal, run_ok]
    simp only [ne_eq, one_ne_zero, not_false_eq_true, decide_true, assertThat_true, run_ok]
    rw [C16_pubkey_create hctx _ lb hb.1 hb.2, call_legal, run_ok]
    simp only [ne_eq, one_ne_zero, not_false_eq_true, decide_true, assertThat_true, run_ok]
    rw [serialize33 hA (hu 2 33), call_legal, run_ok]
    simp only [ne_eq, one_ne_zero, not_false_eq_true, decide_true, assertThat_true, run_ok]
    rw [serialize33 hB (hu 3 33), call_legal, run_ok]
    simp only [ne_eq, one_ne_zero, not_false_eq_true, decide_true, assertThat_true, run_ok]
    rw [C21_default_hash hB (hu 4 32) la ha.1 ha.2, e1, call_legal, run_ok]
    simp only [ne_eq, one_ne_zero, not_false_eq_true, decide_true, assertThat_true, run_ok]
    rw [C21_default_hash hA (hu 5 32) lb hb.1 hb.2, e2, call_legal, run_ok]
    simp only [ne_eq, one_ne_zero, not_false_eq_true, decide_true, assertThat_true, run_ok, Option.getD_some,
      memcmp_self]
    obtain ⟨w, hw⟩ := destroy_ok hctx
    rw [hw, run_ok]
    rfl

/-- `examples/ellswift.c`.  Without randomness or with an invalid secret key the program ends with
`EXIT_FAILURE`.  Otherwise it is still searching for an encoding, or it has made two encodings `e₁`, `e₂`
of 64 bytes.  If none of them has a first half that is a multiple of `p` (see C49), they encode the public
keys, both parties get the same BIP-324 secret, no assertion fails and no call is illegal. -/
theorem C79_ellswift {junk : Ctx} (hc : junk.gen.cfg.Build) {u : ℕ → ℕ → Bytes}
    (hu : ∀ i k, (u i k).length = k) (fuel : ℕ) (randomize : Option Bytes)
    {seckey1 seckey2 : Option Bytes} (hs1 : ∀ b, seckey1 = some b → b.length = 32)
    (hs2 : ∀ b, seckey2 = some b → b.length = 32) (aux1 aux2 : Option Bytes) :
    (randomize = none ∨ NoKey seckey1 ∨ NoKey seckey2 ∨ aux1 = none ∨ aux2 = none →
      exampleEllswift fuel junk u randomize seckey1 seckey2 aux1 aux2 = .error .exitFailure) ∧
    (∀ rb a b x1 x2, randomize = some rb → seckey1 = some a → seckey2 = some b → GoodKey a → GoodKey b →
      aux1 = some x1 → aux2 = some x2 →
      ((∀ ctx, LiveCtx ctx →
          ellswiftCreate ctx fuel (some (u 0 64)) (some a) (some x1) = none ∨
          ellswiftCreate ctx fuel (some (u 1 64)) (some b) (some x2) = none) ∧
        exampleEllswift fuel junk u randomize seckey1 seckey2 aux1 aux2 = .error .running) ∨
      ∃ e₁ e₂, e₁.length = 64 ∧ e₂.length = 64 ∧
        (∀ ctx, LiveCtx ctx →
          ellswiftCreate ctx fuel (some (u 0 64)) (some a) (some x1) = some ⟨1, 0, some e₁⟩ ∧
          ellswiftCreate ctx fuel (some (u 1 64)) (some b) (some x2) = some ⟨1, 0, some e₂⟩) ∧
        (ellU e₁ ≠ 0 → ellU e₂ ≠ 0 →
          (∀ old, ellswiftDecode (some old) (some e₁) = ⟨1, 0, some (keyObject (beNat a • G))⟩ ∧
            ellswiftDecode (some old) (some e₂) = ⟨1, 0, some (keyObject (beNat b • G))⟩) ∧
          exampleEllswift fuel junk u randomize seckey1 seckey2 aux1 aux2 =
            .ok ⟨a, e₁, b, e₂, taggedHash bip324Tag
              (e₁ ++ e₂ ++ beBytes 32 (ptX ((beNat a * beNat b) • G)))⟩)) := by
  refine ⟨fun h => ?_, ?_⟩
  · unfold exampleEllswift
    cases randomize with
    | none => rw [newRandomized_none hc, run_error]
    | some rb =>
      obtain ⟨ctx, h1, -⟩ := newRandomized_some hc rb
      rw [h1, run_ok]
      cases seckey1 with
      | none => rw [fillRandom_none, run_error]
      | some a =>
        cases seckey2 with
        | none => rw [fillRandom_some, run_ok, fillRandom_none, run_error]
        | some b =>
          rw [fillRandom_some, run_ok, fillRandom_some, run_ok]
          by_cases ha : GoodKey a
          · rw [seckeyVerify_good (hs1 _ rfl) ha, call_legal, run_ok]
            simp only [orExit_one, run_ok]
            by_cases hb : GoodKey b
            · rw [seckeyVerify_good (hs2 _ rfl) hb, call_legal, run_ok]
              simp only [orExit_one, run_ok]
              cases aux1 with
              | none => rw [fillRandom_none, run_error]
              | some x1 =>
                cases aux2 with
                | none => rw [fillRandom_some, run_ok, fillRandom_none, run_error]
                | some x2 =>
                  exfalso
                  rcases h with h | h | h | h | h
                  · cases h
                  · rcases h with h | ⟨sk, h, hg⟩
                    · cases h
                    · exact hg (Option.some.inj h ▸ ha)
                  · rcases h with h | ⟨sk, h, hg⟩
                    · cases h
                    · exact hg (Option.some.inj h ▸ hb)
                  · cases h
                  · cases h
            · rw [seckeyVerify_bad (hs2 _ rfl) hb, call_legal, run_ok]
              rfl
          · rw [seckeyVerify_bad (hs1 _ rfl) ha, call_legal, run_ok]
            rfl
  · rintro rb a b x1 x2 rfl rfl rfl ha hb rfl rfl
    obtain ⟨ctx, h1, hctx⟩ := newRandomized_some hc rb
    have la := hs1 _ rfl
    have lb := hs2 _ rfl
    have same1 : ∀ ctx', LiveCtx ctx' → ellswiftCreate ctx' fuel (some (u 0 64)) (some a) (some x1) =
        ellswiftCreate ctx fuel (some (u 0 64)) (some a) (some x1) := fun _ h =>
      (C38_create_same h hctx fuel _ _ _).2.2
    have same2 : ∀ ctx', LiveCtx ctx' → ellswiftCreate ctx' fuel (some (u 1 64)) (some b) (some x2) =
        ellswiftCreate ctx fuel (some (u 1 64)) (some b) (some x2) := fun _ h =>
      (C38_create_same h hctx fuel _ _ _).2.2
    unfold exampleEllswift
    rw [h1, run_ok, fillRandom_some, run_ok, fillRandom_some, run_ok, seckeyVerify_good la ha, call_legal,
      run_ok]
    simp only [orExit_one, run_ok]
    rw [seckeyVerify_good lb hb, call_legal, run_ok]
    simp only [orExit_one, run_ok, fillRandom_some]
    cases c1 : ellswiftCreate ctx fuel (some (u 0 64)) (some a) (some x1) with
    | none => exact Or.inl ⟨fun ctx' h' => Or.inl (by rw [same1 _ h', c1]), rfl⟩
    | some o1 =>
      obtain ⟨e₁, rfl, l1, d1⟩ := C49_create hctx la ha.1 ha.2 (hu 0 64) _ c1
      cases c2 : ellswiftCreate ctx fuel (some (u 1 64)) (some b) (some x2) with
      | none => exact Or.inl ⟨fun ctx' h' => Or.inr (by rw [same2 _ h', c2]), rfl⟩
      | some o2 =>
        obtain ⟨e₂, rfl, l2, d2⟩ := C49_create hctx lb hb.1 hb.2 (hu 1 64) _ c2
        refine Or.inr ⟨e₁, e₂, l1, l2, fun ctx' h' => ⟨by rw [same1 _ h', c1], by rw [same2 _ h', c2]⟩,
          fun u1 u2 => ⟨fun old => ⟨d1 u1 old, d2 u2 old⟩, ?_⟩⟩
        have f1 := (C50_bip324_flow hctx hctx la lb ha.1 ha.2 hb.1 hb.2 (hu 0 64) (hu 1 64) (hu 2 32) _ _
          c1 u1 c2 u2).1
        have f2 := (C50_bip324_flow hctx hctx la lb ha.1 ha.2 hb.1 hb.2 (hu 0 64) (hu 1 64) (hu 3 32) _ _
          c1 u1 c2 u2).2
        rw [callLoop_some, call_legal, run_ok]
        simp only [ne_eq, one_ne_zero, not_false_eq_true, decide_true, assertThat_true, run_ok, callLoop_some,
          call_legal]
        rw [f1, call_legal, run_ok]
        simp only [ne_eq, one_ne_zero, not_false_eq_true, decide_true, assertThat_true, run_ok]
        rw [f2, call_legal, run_ok]
        simp only [ne_eq, one_ne_zero, not_false_eq_true, decide_true, assertThat_true, run_ok,
          Option.getD_some, memcmp_self]
        obtain ⟨w, hw⟩ := destroy_ok hctx
        rw [hw, run_ok]
        rfl

/-- Concrete runs: the keys 7 and 5 are good, a key equal to the order and a missing key are not. -/
example : GoodKey (beBytes 32 7) ∧ GoodKey (beBytes 32 5) ∧ NoKey (some (beBytes 32 n)) ∧ NoKey none ∧
    exampleEcdsa 3 (contextStatic comb22) (fun _ k => zeros k) (some (zeros 32)) (some (beBytes 32 n)) =
      .error .exitFailure ∧
    exampleEcdh (contextStatic comb22) (fun _ k => zeros k) (some (zeros 32)) (some (beBytes 32 7))
      (some (beBytes 32 5)) = .ok ⟨beBytes 32 7, compressed (7 • G), beBytes 32 5, compressed (5 • G),
        sha256 (compressed (35 • G))⟩ ∧
    exampleEllswift 3 (contextStatic comb22) (fun _ k => zeros k) (some (zeros 32)) (some (beBytes 32 7))
      (some (beBytes 32 5)) none none = .error .exitFailure := by
  have g7 : GoodKey (beBytes 32 7) := ⟨by decide +kernel, by decide +kernel⟩
  have g5 : GoodKey (beBytes 32 5) := ⟨by decide +kernel, by decide +kernel⟩
  have bn : NoKey (some (beBytes 32 n)) := Or.inr ⟨_, rfl, fun h => absurd h.2 (by decide +kernel)⟩
  have hl : ∀ (k : ℕ) (b : Bytes), some (beBytes 32 k) = some b → b.length = 32 := fun k b h => by
    rw [← Option.some.inj h, beBytes_len]
  have hu : ∀ i k : ℕ, ((fun _ k => zeros k) i k).length = k := fun _ k => by simp [zeros]
  have hb : (contextStatic comb22).gen.cfg.Build := Or.inr (Or.inl rfl)
  refine ⟨g7, g5, bn, Or.inl rfl, (C79_ecdsa hb hu 3 _ (hl _)).1 (Or.inr bn), ?_,
    (C79_ellswift hb hu 3 _ (hl _) (hl _) _ _).1 (Or.inr (Or.inr (Or.inr (Or.inl rfl))))⟩
  have := (C79_ecdh hb hu (some (zeros 32)) (hl 7) (hl 5)).2 _ _ _ rfl rfl rfl g7 g5
  rwa [show beNat (beBytes 32 7) = 7 by decide +kernel, show beNat (beBytes 32 5) = 5 by decide +kernel] at this

end Secp
