import Verif.Props.C79Musig

/-!
# C79: the MuSig example, whole program
-/

namespace Secp
open Model Spec

seal keyObject beBytes xonly compressed keypairObject secnonceObject pubnonceObject aggnonceObject cacheObject
  sessionFor musigNonce partialSigObject tweakSeq exTweaks exPlainTweak exXonlyTweak

/-- `examples/musig.c`, for any message of 32 bytes and any number of signers with valid keys, session randomness that is not zero and
nonces that are not zero.  Let `Ps` be the public keys in the order of their compressed encodings; BIP-327
assumes that they do not add up to infinity.  If BIP-327 accepts the two tweaks and the final nonce is not
infinity, the program ends successfully, with a signature that is valid under BIP-340 for the tweaked
aggregate key; every secret nonce is then zeroed.  Otherwise it ends with `EXIT_FAILURE`. -/
theorem C79_musig {junk : Ctx} (hc : junk.gen.cfg.Build) {u : ℕ → ℕ → Bytes} (hu : ∀ i k, (u i k).length = k)
    {m : Bytes} (hm : m.length = 32)
    {xs : List MuIn} (h0 : xs ≠ []) (h : ∀ x ∈ xs, x.Good m) {Ps : List Pt}
    (hp : Ps.Perm (xs.map MuIn.key)) (hsort : Ps.Pairwise fun P Q => compressed P ≤ compressed Q)
    (hQ : aggPoint Ps ≠ 0) :
    (tweakSeq Ps exTweaks = none → exampleMusig m junk u (xs.map MuIn.input) = .error .exitFailure) ∧
    (∀ c, tweakSeq Ps exTweaks = some c →
      (musigFinal m c xs ≠ 0 → ∃ sig signers,
        exampleMusig m junk u (xs.map MuIn.input) = .ok (keyObject (evenY c.Q), sig, signers) ∧
        SchnorrValid (evenY c.Q) m sig ∧ signers.length = xs.length ∧
        ∀ s ∈ signers, s.secnonce = List.replicate 132 0) ∧
      (musigFinal m c xs = 0 →
        exampleMusig m junk u (xs.map MuIn.input) = .error .exitFailure)) := by
  obtain ⟨ctx, n1, hctx⟩ := newContext_ok hc
  obtain ⟨idx, s1, s2⟩ := musig_sort h hp hsort
  have hne : Ps ≠ [] := by
    rintro rfl
    exact h0 (by simpa using hp.symm.eq_nil)
  have hP : ∀ P ∈ Ps, P ≠ 0 := by
    intro P hPs
    obtain ⟨x, hx, rfl⟩ := List.mem_map.1 (hp.subset hPs)
    exact goodKey_ne (h x hx).key
  have hagg := C29_aggregate hne hP hQ none (some (u 3 197))
  have htw := musig_tweak u hQ (u 4 64)
  unfold exampleMusig
  rw [n1, run_ok, musig_createAll hctx h, run_ok, s1, callMem_some, call_legal, run_ok]
  simp only [orExit_one, run_ok, Option.getD_some]
  rw [s2, hagg, call_legal, run_ok]
  dsimp only [Option.map_some, Option.map_none]
  rw [orExit_one, run_ok, htw]
  refine ⟨fun ht => ?_, fun c ht => ?_⟩
  · rw [ht]
    rfl
  · rw [ht]
    simp only [run_ok]
    obtain ⟨hc1, hc2, -⟩ := C29_tweak_invariant hQ ht
    obtain ⟨sig, signers, e1, e2, e3, e4, e5⟩ := musig_sign hctx (u := u) hm h0 h hp hQ ht (hu 5 64)
    rw [e1, run_ok]
    obtain ⟨v1, v2, v3⟩ := C23_verify_iff (evenY_ne_zero hc1) e2 m (msglen := 32) (by omega)
    rw [take32 hm] at v1
    simp only
    generalize hv : schnorrsigVerify (some sig) (some m) 32 (some (keyObject (evenY c.Q))) = o at *
    obtain ⟨ret, ill, w⟩ := o
    simp only at v1 v2 v3 e5
    subst v3
    rw [call_legal, run_ok]
    refine ⟨fun hf => ?_, fun hf => ?_⟩
    · obtain rfl := e5.2 hf
      obtain ⟨w, hw⟩ := destroy_ok hctx
      simp only [orExit_one, run_ok]
      rw [hw, run_ok]
      exact ⟨sig, signers, rfl, v1.1 rfl, e3, e4⟩
    · rcases v2 with rfl | rfl
      · exact absurd hf (e5.1 rfl)
      · rfl

theorem musig_createAll_bad {ctx : Ctx} (hctx : LiveCtx ctx) : ∀ {inps : List ExInput},
    (∀ i ∈ inps, ∀ b, i.seckey = some b → b.length = 32) → (∃ i ∈ inps, NoKey i.seckey) →
    exCreateAll ctx inps = .error .exitFailure
  | [], _, ⟨_, h, _⟩ => by cases h
  | i :: inps, hl, hex => by
    rw [exCreateAll, exCreateKeypair]
    cases hs : i.seckey with
    | none => rfl
    | some sk =>
      have hsk := hl i (by simp) sk hs
      rw [fillRandom_some]
      simp only [run_ok]
      by_cases hg : GoodKey sk
      · rw [keypairCreate_good hctx _ hsk hg]
        simp only [call_legal, run_ok, orExit_one, Option.getD_some]
        rw [keypairPub_obj]
        simp only [call_legal, run_ok, orExit_one, Option.getD_some, run_pure]
        have hex' : ∃ j ∈ inps, NoKey j.seckey := by
          obtain ⟨j, hj, hn⟩ := hex
          rcases List.mem_cons.1 hj with rfl | hj
          · exfalso
            rcases hn with hn | ⟨sk', hn, hb⟩
            · rw [hs] at hn; cases hn
            · rw [hs] at hn
              exact hb (Option.some.inj hn ▸ hg)
          · exact ⟨j, hj, hn⟩
        rw [musig_createAll_bad hctx (fun j hj => hl j (by simp [hj])) hex']
        rfl
      · rw [keypairCreate_bad hctx _ hsk hg]
        rfl

/-- If the randomness for a secret key is missing or does not give a valid key, `examples/musig.c` ends with
`EXIT_FAILURE`. -/
theorem C79_musig_no_key {junk : Ctx} (hc : junk.gen.cfg.Build) (m : Bytes) (u : ℕ → ℕ → Bytes)
    {inps : List ExInput}
    (hl : ∀ i ∈ inps, ∀ b, i.seckey = some b → b.length = 32) (h : ∃ i ∈ inps, NoKey i.seckey) :
    exampleMusig m junk u inps = .error .exitFailure := by
  obtain ⟨ctx, n1, hctx⟩ := newContext_ok hc
  rw [exampleMusig, n1, run_ok, musig_createAll_bad hctx hl h]
  rfl

/-- Three signers with the secret keys -1, 1, 1. -/
def exMuIns : List MuIn :=
  [⟨⟨zeros 96, zeros 132, zeros 64, zeros 132, zeros 36⟩, zeros 32, beBytes 32 (n - 1), List.replicate 32 1⟩,
   ⟨⟨zeros 96, zeros 132, zeros 64, zeros 132, zeros 36⟩, zeros 32, beBytes 32 1, List.replicate 32 2⟩,
   ⟨⟨zeros 96, zeros 132, zeros 64, zeros 132, zeros 36⟩, zeros 32, beBytes 32 1, List.replicate 32 3⟩]

theorem exMuIns_key1 : beNat (beBytes 32 1) • G = G := by
  rw [show beNat (beBytes 32 1) = 1 by decide +kernel, one_nsmul]

theorem exMuIns_key2 : beNat (beBytes 32 (n - 1)) • G = -G := by
  rw [← natCast_smul, show ((beNat (beBytes 32 (n - 1)) : ℕ) : Fn) = -1 by decide +kernel, neg_smul, one_smul]

theorem exMuIns_good : ∀ x ∈ exMuIns, x.Good exMusigMsg := by
  intro x hx
  simp only [exMuIns, List.mem_cons, List.not_mem_nil, or_false] at hx
  rcases hx with rfl | rfl | rfl
  · refine ⟨by decide +kernel, by decide +kernel, ⟨by decide +kernel, by decide +kernel⟩, by decide +kernel,
      ⟨1, by decide +kernel, by decide +kernel⟩, ?_, ?_⟩ <;>
    simp only [MuIn.signer, MuIn.key, exMuIns_key2, musigNonce, musigNonceInput, musigMask, taggedHash,
      compressed_neg_G, Hash.fastSha_eq] <;> decide +kernel
  · refine ⟨by decide +kernel, by decide +kernel, ⟨by decide +kernel, by decide +kernel⟩, by decide +kernel,
      ⟨2, by decide +kernel, by decide +kernel⟩, ?_, ?_⟩ <;>
    simp only [MuIn.signer, MuIn.key, exMuIns_key1, musigNonce, musigNonceInput, musigMask, taggedHash,
      compressed_G, Hash.fastSha_eq] <;> decide +kernel
  · refine ⟨by decide +kernel, by decide +kernel, ⟨by decide +kernel, by decide +kernel⟩, by decide +kernel,
      ⟨3, by decide +kernel, by decide +kernel⟩, ?_, ?_⟩ <;>
    simp only [MuIn.signer, MuIn.key, exMuIns_key1, musigNonce, musigNonceInput, musigMask, taggedHash,
      compressed_G, Hash.fastSha_eq] <;> decide +kernel

theorem aggPoint_sorted : aggPoint [G, G, -G] ≠ 0 := by
  have hs : secondKey [G, G, -G] = -G := by
    simp [secondKey, neg_G_ne]
  have h1 : keyCoef [G, G, -G] (-G) = 1 := by rw [keyCoef, hs, if_pos rfl]
  obtain ⟨h, h2, h3⟩ : ∃ h : Fn, keyCoef [G, G, -G] G = h ∧ h + (h + -1) ≠ 0 := by
    refine ⟨_, rfl, ?_⟩
    rw [keyCoef, hs, if_neg (fun h => neg_G_ne h.symm), keysHash]
    simp only [List.flatMap_cons, List.flatMap_nil, compressed_G, compressed_neg_G, taggedHash,
      Hash.fastSha_eq]
    decide +kernel
  have : aggPoint [G, G, -G] = (h + (h + -1)) • G := by
    simp only [aggPoint, List.map_cons, List.map_nil, List.sum_cons, List.sum_nil, h1, h2, val_smul]
    simp only [add_smul, neg_smul, one_smul, smul_neg, add_zero]
  rw [this]
  exact smul_G_ne h3

/-- The hypotheses hold for three signers that are not listed in the order of their keys. -/
example : exMuIns ≠ [] ∧ (∀ x ∈ exMuIns, x.Good exMusigMsg) ∧ [G, G, -G].Perm (exMuIns.map MuIn.key) ∧
    ([G, G, -G].Pairwise fun P Q => compressed P ≤ compressed Q) ∧ aggPoint [G, G, -G] ≠ 0 ∧
    exMusigMsg.length = 32 := by
  refine ⟨by simp [exMuIns], exMuIns_good, ?_, ?_, aggPoint_sorted, by decide +kernel⟩
  · simp only [exMuIns, List.map_cons, List.map_nil, MuIn.key, exMuIns_key1, exMuIns_key2]
    exact (List.perm_append_comm (l₁ := [G, G]) (l₂ := [-G]))
  · have hlt : compressed G < compressed (-G) := by
      rw [compressed_G, compressed_neg_G, List.cons_lt_cons_iff]; left; decide
    simp [List.le_of_lt hlt]

/-- A key that is too large. -/
example : exampleMusig exMusigMsg (contextStatic comb22) (fun _ k => zeros k)
    [⟨⟨zeros 96, zeros 132, zeros 64, zeros 132, zeros 36⟩, zeros 32, some (beBytes 32 n), none⟩] =
      .error .exitFailure :=
  C79_musig_no_key (Or.inr (Or.inl rfl)) _ _
    (fun i hi b hb => by
      obtain rfl := List.mem_singleton.1 hi
      rw [← Option.some.inj hb, beBytes_len])
    ⟨_, List.mem_singleton.2 rfl, Or.inr ⟨_, rfl, fun h => absurd h.2 (by decide +kernel)⟩⟩

end Secp
