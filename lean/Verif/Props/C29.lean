import Verif.Proof.MusigKeyagg

/-!
# C29: MuSig key aggregation and tweaking are those of BIP-327

The specification (`secondKey`, `keyCoef`, `aggPoint`, `applyTweak`, `cacheObject`) is in
`Verif/Spec/Musig.lean`.  The aggregate point is assumed not to be infinity (the code does not test for
that case, which nobody knows how to reach).
-/

namespace Secp
open Model Spec

seal keyObject beBytes keysHash compressed

/-- For every non-empty list of public keys (repetitions allowed), `secp256k1_musig_pubkey_agg` returns 1
and stores the x-only key of `Σ aᵢ Pᵢ` and the cache of that sum. -/
theorem C29_aggregate {Ps : List Pt} (h0 : Ps ≠ []) (hP : ∀ P ∈ Ps, P ≠ 0) (hQ : aggPoint Ps ≠ 0)
    (aggPk cache : Option Bytes) :
    musigPubkeyAgg aggPk cache (some (Ps.map keyObject)) =
      ⟨1, 0, (aggPk.map fun _ => keyObject (evenY (aggPoint Ps)),
        cache.map fun _ => cacheObject Ps (keyaggInit Ps))⟩ := by
  cases Ps with
  | nil => exact absurd rfl h0
  | cons P Ps =>
    have hf := findSecond_eq P Ps
    have hsec := secondKey_cons P Ps
    unfold musigPubkeyAgg
    simp only [List.map_cons]
    rw [hf]
    cases hfind : Ps.find? fun Q => decide (Q ≠ P) with
    | none =>
      rw [hfind] at hsec
      have hs : GeRep 7 (geInfinity : Ge Fp) (secondKey (P :: Ps)) := by
        rw [hsec]; exact geInfinity_rep 7
      simp only [Option.map_none]
      rw [← List.map_cons, pubkeyAggWith_eq hP hQ hs, Option.map_map]
      rfl
    | some Q =>
      rw [hfind] at hsec
      have hq : Q ≠ 0 := hP Q (List.mem_cons_of_mem _ (List.mem_of_find?_eq_some hfind))
      obtain ⟨h1, h2, -⟩ := pubkeyLoad_obj hq
      have hs : GeRep 7 (pubkeyLoad (keyObject Q)).1 (secondKey (P :: Ps)) := by
        rw [hsec]; exact h2
      simp only [Option.map_some]
      rw [h1, if_neg (by decide), ← List.map_cons, pubkeyAggWith_eq hP hQ hs, Option.map_map]
      rfl

/-- A list with an object that holds no key is refused: one illegal callback, the aggregate key is
zeroed and the cache is not touched. -/
theorem C29_aggregate_invalid_key {objs : List Bytes} (h : ∃ o ∈ objs, leNat (o.take 32) = 0)
    (aggPk cache : Option Bytes) :
    musigPubkeyAgg aggPk cache (some objs) =
      ⟨0, 1, (aggPk.map fun _ => List.replicate 64 0, cache)⟩ := by
  have hw : ∀ sec, pubkeyAggWith (aggPk.map fun _ => zeros 64) cache objs sec =
      ⟨0, 1, (aggPk.map fun _ => List.replicate 64 0, cache)⟩ := by
    intro sec
    unfold pubkeyAggWith
    rw [computePksHash, pksHashLoop_invalid objs _ h]
    rfl
  cases objs with
  | nil => simp at h
  | cons o objs =>
    unfold musigPubkeyAgg
    simp only
    cases findSecond o objs with
    | none => exact hw _
    | some pk =>
      simp only
      split
      · rfl
      · exact hw _

/-- The all-zero object among the keys. -/
example := C29_aggregate_invalid_key (objs := [keyObject G, List.replicate 64 0]) 
  ⟨List.replicate 64 0, List.mem_cons_of_mem _ (List.mem_singleton.2 rfl), by decide +kernel⟩ (some []) (some [7])

/-- One tweak: `secp256k1_musig_pubkey_ec_tweak_add` and `secp256k1_musig_pubkey_xonly_tweak_add` compute
ApplyTweak of BIP-327, in the cache and in the output key; if ApplyTweak fails they return 0, zero the
output key and leave the cache as it is. -/
theorem C29_tweak {Ps : List Pt} {c : KeyaggCtx} (hc : KeyaggOk c) {t : Bytes} (ht : t.length = 32)
    (out : Option Bytes) :
    (musigEcTweakAdd out (some (cacheObject Ps c)) (some t) =
      match applyTweak c false t with
      | some c' => ⟨1, 0, (out.map fun _ => keyObject c'.Q, some (cacheObject Ps c'))⟩
      | none => ⟨0, 0, (out.map fun _ => List.replicate 64 0, some (cacheObject Ps c))⟩) ∧
    (musigXonlyTweakAdd out (some (cacheObject Ps c)) (some t) =
      match applyTweak c true t with
      | some c' => ⟨1, 0, (out.map fun _ => keyObject c'.Q, some (cacheObject Ps c'))⟩
      | none => ⟨0, 0, (out.map fun _ => List.replicate 64 0, some (cacheObject Ps c))⟩) :=
  ⟨tweakAdd_eq hc ht false out, tweakAdd_eq hc ht true out⟩

/-- `secp256k1_musig_pubkey_get` returns the (full) aggregate key. -/
theorem C29_get {Ps : List Pt} {c : KeyaggCtx} (hc : KeyaggOk c) (old : Bytes) :
    musigPubkeyGet (some old) (some (cacheObject Ps c)) = ⟨1, 0, some (keyObject c.Q)⟩ := by
  obtain ⟨a, sec, hl, ha, -⟩ := keyaggCacheLoad_obj (Ps := Ps) hc
  unfold musigPubkeyGet
  simp only
  rw [hl]
  simp only
  rw [pubkeySave_rep ha hc.finite]

/-- A sequence of tweak calls (true: x-only, false: plain) on a cache, as a caller makes them: stops at
the first call that does not return 1. -/
def runTweaks (cache : Bytes) : List (Bool × Bytes) → Option Bytes
  | [] => some cache
  | (x, t) :: rest =>
    let o := if x then musigXonlyTweakAdd none (some cache) (some t)
      else musigEcTweakAdd none (some cache) (some t)
    if o.ret = 1 then o.val.2.bind fun cache => runTweaks cache rest else none

theorem runTweaks_eq {Ps : List Pt} : ∀ (ts : List (Bool × Bytes)) (c : KeyaggCtx), KeyaggOk c →
    (∀ t ∈ ts, t.2.length = 32) →
    runTweaks (cacheObject Ps c) ts =
      (ts.foldlM (fun c t => applyTweak c t.1 t.2) c).map (cacheObject Ps)
  | [], c, _, _ => rfl
  | (x, t) :: ts, c, hc, ht => by
    have h := tweakAdd_eq (Ps := Ps) hc (ht (x, t) (by simp)) x none
    have e : (if x then musigXonlyTweakAdd none (some (cacheObject Ps c)) (some t)
      else musigEcTweakAdd none (some (cacheObject Ps c)) (some t)) =
        musigTweakAddInternal none (some (cacheObject Ps c)) (some t) x := by
      cases x
      · rw [if_neg (by decide), musigEcTweakAdd]
      · rw [if_pos rfl, musigXonlyTweakAdd]
    rw [runTweaks, e, h, List.foldlM_cons]
    simp only
    cases hA : applyTweak c x t with
    | none => rfl
    | some c' =>
      simp only
      rw [if_pos trivial]
      exact runTweaks_eq ts c' (applyTweak_ok hc hA) (fun q hq => ht q (by simp [hq]))

/-- Any sequence of plain and x-only tweaks: the calls succeed exactly as long as BIP-327 does, and the
cache then is the one of the BIP-327 context. -/
theorem C29_tweak_sequence {Ps : List Pt} (hQ : aggPoint Ps ≠ 0) {ts : List (Bool × Bytes)}
    (ht : ∀ t ∈ ts, t.2.length = 32) :
    runTweaks (cacheObject Ps (keyaggInit Ps)) ts = (tweakSeq Ps ts).map (cacheObject Ps) :=
  runTweaks_eq ts _ ⟨hQ, Or.inl rfl⟩ ht

/-- Every context that is reached has a finite point, a sign `±1`, and its point is
`gacc • Σ aᵢ Pᵢ + tacc • G`. -/
theorem C29_tweak_invariant {Ps : List Pt} (hQ : aggPoint Ps ≠ 0) {ts : List (Bool × Bytes)}
    {c : KeyaggCtx} (h : tweakSeq Ps ts = some c) :
    c.Q ≠ 0 ∧ (c.gacc = 1 ∨ c.gacc = -1) ∧ c.Q = c.gacc.val • aggPoint Ps + c.tacc.val • G := by
  have key : ∀ (ts : List (Bool × Bytes)) (c₀ c : KeyaggCtx), KeyaggOk c₀ →
      c₀.Q = c₀.gacc • aggPoint Ps + c₀.tacc • G →
      ts.foldlM (fun c t => applyTweak c t.1 t.2) c₀ = some c →
      KeyaggOk c ∧ c.Q = c.gacc • aggPoint Ps + c.tacc • G := by
    intro ts
    induction ts with
    | nil =>
      intro c₀ c h1 h2 h3
      obtain rfl := Option.some.inj h3
      exact ⟨h1, h2⟩
    | cons q ts ih =>
      intro c₀ c h1 h2 h3
      rw [List.foldlM_cons] at h3
      cases hA : applyTweak c₀ q.1 q.2 with
      | none => rw [hA] at h3; cases h3
      | some c₁ =>
        rw [hA] at h3
        refine ih c₁ c (applyTweak_ok h1 hA) ?_ h3
        obtain ⟨-, -, rfl⟩ := applyTweak_some hA
        simp only
        rw [val_smul, h2, smul_add, add_smul, mul_smul, mul_smul, natCast_smul]
        abel
  obtain ⟨h1, h2⟩ := key ts (keyaggInit Ps) c ⟨hQ, Or.inl rfl⟩ (by simp [keyaggInit, fn_zero_smul]) h
  exact ⟨h1.finite, h1.sign, by rw [val_smul, val_smul]; exact h2⟩

/-- The whole flow: aggregation, then any tweaks that succeed, then reading the key. -/
theorem C29_flow {Ps : List Pt} (h0 : Ps ≠ []) (hP : ∀ P ∈ Ps, P ≠ 0) (hQ : aggPoint Ps ≠ 0)
    {ts : List (Bool × Bytes)} (ht : ∀ t ∈ ts, t.2.length = 32) {c : KeyaggCtx}
    (h : tweakSeq Ps ts = some c) (old old' : Bytes) :
    ∃ cache cache', musigPubkeyAgg none (some old) (some (Ps.map keyObject)) = ⟨1, 0, (none, some cache)⟩ ∧
      runTweaks cache ts = some cache' ∧
      musigPubkeyGet (some old') (some cache') = ⟨1, 0, some (keyObject c.Q)⟩ := by
  obtain ⟨h1, h2, -⟩ := C29_tweak_invariant hQ h
  refine ⟨_, _, C29_aggregate h0 hP hQ none (some old), ?_, C29_get (Ps := Ps) ⟨h1, h2⟩ old'⟩
  rw [C29_tweak_sequence hQ ht, h]
  rfl

theorem ptX_G : ptX G = gx := by
  rw [G, ptX_some]; decide +kernel

theorem ptY_G : ptY G = gy := by
  rw [G, ptY_some]; decide +kernel

theorem compressed_G : compressed G = 2 :: beBytes 32 gx := by
  rw [compressed, ptX_G, ptY_G, if_neg (by decide +kernel)]

theorem compressed_neg_G : compressed (-G) = 3 :: beBytes 32 gx := by
  rw [compressed, ptY_neg G_ne_zero, ptX_neg, ptX_G, ptY_G, if_pos (by decide +kernel)]

theorem neg_G_ne : -G ≠ G := fun h => by
  have := congrArg compressed h
  rw [compressed_G, compressed_neg_G] at this
  exact absurd (List.cons.inj this).1 (by decide)

/-- The keys G, -G, G: the second one has coefficient 1. -/
theorem aggPoint_example : aggPoint [G, -G, G] ≠ 0 := by
  have hs : secondKey [G, -G, G] = -G := by
    simp [secondKey, neg_G_ne]
  have h1 : keyCoef [G, -G, G] (-G) = 1 := by rw [keyCoef, hs, if_pos rfl]
  obtain ⟨h, h2, h3⟩ : ∃ h : Fn, keyCoef [G, -G, G] G = h ∧ h + (-1 + h) ≠ 0 := by
    refine ⟨_, rfl, ?_⟩
    rw [keyCoef, hs, if_neg (fun h => neg_G_ne h.symm), keysHash]
    simp only [List.flatMap_cons, List.flatMap_nil, compressed_G, compressed_neg_G, taggedHash,
      Hash.fastSha_eq]
    decide +kernel
  have : aggPoint [G, -G, G] = (h + (-1 + h)) • G := by
    simp only [aggPoint, List.map_cons, List.map_nil, List.sum_cons, List.sum_nil, h1, h2, val_smul]
    simp only [add_smul, neg_smul, one_smul, smul_neg, add_zero]
  rw [this]
  exact smul_G_ne h3

example : [G, -G, G] ≠ [] ∧ (∀ P ∈ [G, -G, G], P ≠ 0) ∧ aggPoint [G, -G, G] ≠ 0 :=
  ⟨by simp, by simp [G_ne_zero], aggPoint_example⟩

/-- An x-only tweak followed by a plain one. -/
example : ∃ c, tweakSeq [G, -G, G] [(true, List.replicate 32 0), (false, List.replicate 32 0)] = some c := by
  have hz : beNat (List.replicate 32 0) = 0 := by decide +kernel
  have step : ∀ (c : KeyaggCtx) (x : Bool), KeyaggOk c →
      ∃ c', applyTweak c x (List.replicate 32 0) = some c' := by
    intro c x hc
    have hne : tweakSign c x • c.Q ≠ 0 := by
      refine smul_ne_zero' ?_ hc.finite
      rcases tweakSign_cases c x with e | e <;> rw [e] <;> decide +kernel
    unfold applyTweak
    simp only
    rw [← tweakSign, hz, zero_nsmul, add_zero, val_smul, if_pos ⟨n_pos, hne⟩]
    exact ⟨_, rfl⟩
  have hc0 : KeyaggOk (keyaggInit [G, -G, G]) := ⟨aggPoint_example, Or.inl rfl⟩
  obtain ⟨c1, h1⟩ := step _ true hc0
  obtain ⟨c2, h2⟩ := step _ false (applyTweak_ok hc0 h1)
  refine ⟨c2, ?_⟩
  unfold tweakSeq
  simp only [List.foldlM_cons, List.foldlM_nil]
  rw [h1]
  simp only [Option.bind_eq_bind, Option.bind_some]
  rw [h2]
  rfl

end Secp
