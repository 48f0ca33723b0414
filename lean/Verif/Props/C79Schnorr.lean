import Verif.Props.C36
import Verif.Props.C56
import Verif.Props.C79

/-!
# C79: the Schnorr signature example
-/

namespace Secp
open Model Spec

seal keyObject beBytes xonly taggedHash schnorrRand schnorrSig keypairObject exampleSchnorrTag exampleSchnorrMsg

/-- schnorr.c from the second call of `fill_random` on, with the hash `m` that is signed. -/
noncomputable def schnorrTail (ctx : Ctx) (old m sk : Bytes) (aux : Option Bytes) : Run SigPrinted := do
  let auxRand ← fillRandom aux
  let r ← call (schnorrsigSign32 ctx (some old) (some m) (some (keypairObject ((beNat sk : ℕ) : Fn)))
    (some auxRand))
  assertThat (r.1 ≠ 0)
  let valid ← call (schnorrsigVerify r.2 (some m) 32 (some (keyObject (evenY (beNat sk • G)))))
  let _ ← call (contextDestroy ctx)
  let valid2 ← call (schnorrsigVerify r.2 (some m) 32 (some (keyObject (evenY (beNat sk • G)))))
  assertThat (valid2.1 = valid.1)
  return ⟨valid.1, sk, xonly (beNat sk • G), r.2.getD []⟩

theorem schnorr_head {junk : Ctx} (hc : junk.gen.cfg.Build) {u : ℕ → ℕ → Bytes}
    (hu : ∀ i k, (u i k).length = k) (rb : Bytes) {sk : Bytes} (hl : sk.length = 32) (hg : GoodKey sk)
    (aux : Option Bytes) : ∃ ctx, LiveCtx ctx ∧ exampleSchnorr junk u (some rb) (some sk) aux =
      schnorrTail ctx (u 4 64) (taggedHash exampleSchnorrTag exampleSchnorrMsg) sk aux := by
  obtain ⟨ctx, h1, hctx⟩ := newRandomized_some hc rb
  refine ⟨ctx, hctx, ?_⟩
  have hd : ((beNat sk : ℕ) : Fn) ≠ 0 := cast_ne_zero (by have := hg.1; omega) hg.2
  have hv : ((beNat sk : ℕ) : Fn).val • G = beNat sk • G := by
    rw [ZMod.val_natCast, Nat.mod_eq_of_lt hg.2]
  have hP := goodKey_ne hg
  have t1 := C36_tagged (u 3 32) exampleSchnorrTag exampleSchnorrMsg
  have t2 := C36_tagged (taggedHash exampleSchnorrTag exampleSchnorrMsg) exampleSchnorrTag exampleSchnorrMsg
  unfold exampleSchnorr
  generalize taggedHash exampleSchnorrTag exampleSchnorrMsg = m at *
  generalize exampleSchnorrTag = tag at *
  generalize exampleSchnorrMsg = msg at *
  rw [h1, run_ok, fillRandom_some, run_ok, keypairCreate_good hctx _ hl hg, call_legal, run_ok]
  simp only [orExit_one, run_ok]
  rw [keypairXonlyPub_obj hd, hv, call_legal, run_ok]
  simp only [ne_eq, one_ne_zero, not_false_eq_true, decide_true, assertThat_true, run_ok]
  rw [C26_serialize (evenY_ne_zero hP) (hu 2 32), xonly_evenY, call_legal, run_ok]
  simp only [ne_eq, one_ne_zero, not_false_eq_true, decide_true, assertThat_true, run_ok, t1, t2,
    call_legal, C26_parse_value hP, orExit_one, Option.getD_some]
  rfl

theorem schnorr_tail {ctx : Ctx} (hctx : LiveCtx ctx) {old m sk ax : Bytes} (ho : old.length = 64)
    (hml : m.length = 32) (hl : sk.length = 32) (hg : GoodKey sk) (hx : ax.length = 32) :
    let P := beNat sk • G
    let d' : Fn := if ptY P % 2 = 1 then -((beNat sk : ℕ) : Fn) else ((beNat sk : ℕ) : Fn)
    let k : Fn := ((schnorrRand d' (d'.val • G) ax m : ℕ) : Fn)
    let k' := if ptY (k.val • G) % 2 = 1 then -k else k
    (k ≠ 0 → SchnorrValid (evenY P) m (schnorrSig d' k' m) ∧
      schnorrTail ctx old m sk (some ax) = .ok ⟨1, sk, xonly P, schnorrSig d' k' m⟩) ∧
    (k = 0 → schnorrTail ctx old m sk (some ax) = .error .assertion) := by
  intro P d' k k'
  have hP := goodKey_ne hg
  have hd : ((beNat sk : ℕ) : Fn) ≠ 0 := cast_ne_zero (by have := hg.1; omega) hg.2
  have hv : ((beNat sk : ℕ) : Fn).val • G = beNat sk • G := by
    rw [ZMod.val_natCast, Nat.mod_eq_of_lt hg.2]
  obtain ⟨s1, s2⟩ := C56_sign32 hctx ho hml hd (aux := some ax) (fun a h => Option.some.inj h ▸ hx)
  rw [hv, Option.getD_some] at s1 s2
  change k ≠ 0 → _ = Out.mk 1 0 (some (schnorrSig d' k' m)) at s1
  change k = 0 → _ at s2
  have hlen : (schnorrSig d' k' m).length = 64 := by
    rw [schnorrSig, List.length_append, xonly_length, beBytes_len]
  clear_value k k' d'
  generalize schnorrSig d' k' m = sig at *
  refine ⟨fun hk => ?_, fun hk => ?_⟩
  · have s1 := s1 hk
    obtain ⟨xo, v1, v2⟩ := C24_sign32_verify hctx ho hml
      (KeypairMade.create hctx hl (keypairCreate_good hctx [] hl hg)) (Or.inl s1) []
    rw [keypairXonlyPub_obj hd, hv] at v1
    obtain rfl := Option.some.inj v1
    refine ⟨?_, ?_⟩
    · have := (C23_verify_iff (evenY_ne_zero hP) hlen m (msglen := 32) (by omega)).1.1
      rw [take32 hml] at this
      exact this (congrArg Out.ret v2)
    · obtain ⟨w, hw⟩ := destroy_ok hctx
      rw [schnorrTail, fillRandom_some, run_ok, s1, call_legal, run_ok]
      simp only [ne_eq, one_ne_zero, not_false_eq_true, decide_true, assertThat_true, run_ok]
      rw [v2, call_legal, run_ok, hw, run_ok]
      rfl
  · rw [schnorrTail, fillRandom_some, run_ok, s2 hk, call_legal, run_ok]
    rfl

/-- `examples/schnorr.c`.  Without randomness or with an invalid secret key the program ends with
`EXIT_FAILURE`.  Otherwise let `k` be the BIP-340 nonce for the tagged hash of the message.  If it is not
zero, the program prints the x-only public key and the BIP-340 signature, which is valid, prints that it is
valid, no assertion fails and no call is illegal.  If it is zero, the assertion after signing fails. -/
theorem C79_schnorr {junk : Ctx} (hc : junk.gen.cfg.Build) {u : ℕ → ℕ → Bytes}
    (hu : ∀ i k, (u i k).length = k) (randomize : Option Bytes) {seckey aux : Option Bytes}
    (hs : ∀ b, seckey = some b → b.length = 32) (ha : ∀ b, aux = some b → b.length = 32) :
    (randomize = none ∨ NoKey seckey ∨ aux = none →
      exampleSchnorr junk u randomize seckey aux = .error .exitFailure) ∧
    (∀ rb sk ax, randomize = some rb → seckey = some sk → GoodKey sk → aux = some ax →
      let P := beNat sk • G
      let m := taggedHash exampleSchnorrTag exampleSchnorrMsg
      let d' : Fn := if ptY P % 2 = 1 then -((beNat sk : ℕ) : Fn) else ((beNat sk : ℕ) : Fn)
      let k : Fn := ((schnorrRand d' (d'.val • G) ax m : ℕ) : Fn)
      let k' := if ptY (k.val • G) % 2 = 1 then -k else k
      (k ≠ 0 → SchnorrValid (evenY P) m (schnorrSig d' k' m) ∧
        exampleSchnorr junk u randomize seckey aux = .ok ⟨1, sk, xonly P, schnorrSig d' k' m⟩) ∧
      (k = 0 → exampleSchnorr junk u randomize seckey aux = .error .assertion)) := by
  refine ⟨fun h => ?_, ?_⟩
  · cases randomize with
    | none =>
      unfold exampleSchnorr
      rw [newRandomized_none hc, run_error]
    | some rb =>
      cases seckey with
      | none =>
        unfold exampleSchnorr
        obtain ⟨ctx, h1, -⟩ := newRandomized_some hc rb
        rw [h1, run_ok, fillRandom_none, run_error]
      | some sk =>
        by_cases hg : GoodKey sk
        · obtain ⟨ctx, -, e⟩ := schnorr_head hc hu rb (hs _ rfl) hg aux
          rw [e]
          rcases h with h | h | rfl
          · cases h
          · rcases h with h | ⟨sk', h, hb⟩
            · cases h
            · exact absurd hg (Option.some.inj h ▸ hb)
          · rw [schnorrTail, fillRandom_none, run_error]
        · unfold exampleSchnorr
          obtain ⟨ctx, h1, hctx⟩ := newRandomized_some hc rb
          rw [h1, run_ok, fillRandom_some, run_ok, keypairCreate_bad hctx _ (hs _ rfl) hg, call_legal, run_ok]
          rfl
  · rintro rb sk ax rfl rfl hg rfl
    obtain ⟨ctx, hctx, e⟩ := schnorr_head hc hu rb (hs _ rfl) hg (some ax)
    rw [e]
    exact schnorr_tail hctx (hu 4 64) (taggedHash_len _ _) (hs _ rfl) hg (ha _ rfl)

/-- A run with a good key, and one with a key that is too large. -/
example : (exampleSchnorr (contextStatic comb22) (fun _ k => zeros k) (some (zeros 32)) (some (beBytes 32 n))
      (some (zeros 32)) = .error .exitFailure) ∧
    GoodKey (beBytes 32 7) := by
  refine ⟨(C79_schnorr (Or.inr (Or.inl rfl)) (fun _ k => by simp [zeros]) _ (fun b h => ?_) (fun b h => ?_)).1
    (Or.inr (Or.inl (Or.inr ⟨_, rfl, ?_⟩))), ?_⟩
  · rw [← Option.some.inj h, beBytes_len]
  · rw [← Option.some.inj h]; simp [zeros]
  · exact fun h => absurd h.2 (by decide +kernel)
  · exact ⟨by decide +kernel, by decide +kernel⟩

end Secp
