import Verif.Props.C38

/-! # C39: context lifecycle rules -/

namespace Secp
open Model Spec

/-- The invariant of `C39_history`. -/
def WorldOk (cfg : CombCfg) (w : World) : Prop :=
  w.static = contextStatic cfg ∧ ∀ s, some s ∈ w.heap → LiveCtx s.ctx

theorem WorldOk.get {cfg : CombCfg} {w : World} (h : WorldOk cfg w) {i : Nat} {c : Ctx}
    (hg : w.get (some i) = some c) : LiveCtx c := by
  simp only [World.get, World.slot, Option.map_eq_some_iff] at hg
  obtain ⟨s, hs, rfl⟩ := hg
  refine h.2 s ?_
  rw [Option.join_eq_some_iff] at hs
  exact List.mem_of_getElem? hs

theorem WorldOk.slot {cfg : CombCfg} {w : World} (h : WorldOk cfg w) {i : Nat} {s : Slot}
    (hs : w.slot i = some s) : LiveCtx s.ctx := by
  refine h.2 s ?_
  rw [World.slot, Option.join_eq_some_iff] at hs
  exact List.mem_of_getElem? hs

theorem WorldOk.add {cfg : CombCfg} {w : World} (h : WorldOk cfg w) {c : Option Ctx} {m : Bool}
    (hc : ∀ c', c = some c' → LiveCtx c') : WorldOk cfg (w.add c m) := by
  cases c with
  | none => exact h
  | some c =>
    refine ⟨h.1, fun s hs => ?_⟩
    simp only [World.add, List.mem_append, List.mem_singleton, Option.some.injEq] at hs
    rcases hs with hs | rfl
    · exact h.2 s hs
    · exact hc c rfl

theorem WorldOk.set {cfg : CombCfg} {w : World} (h : WorldOk cfg w) {i : Nat} {c : Ctx}
    (hc : LiveCtx c) : WorldOk cfg (w.set (some i) c) := by
  refine ⟨h.1, fun s hs => ?_⟩
  simp only [World.set] at hs
  obtain ⟨j, hj⟩ := List.mem_iff_getElem?.1 hs
  rw [List.getElem?_modify] at hj
  cases hw : w.heap[j]? with
  | none => rw [hw] at hj; cases hj
  | some o =>
    rw [hw] at hj
    have hj := Option.some.inj hj
    by_cases e : i = j
    · simp only [if_pos e] at hj
      cases o with
      | none => cases hj
      | some s' =>
        have hj := Option.some.inj hj
        rw [← hj]; exact hc
    · simp only [if_neg e] at hj
      exact h.2 s (List.mem_of_getElem? (hj ▸ hw))

theorem heap_set {cfg : CombCfg} {w : World} (h : WorldOk cfg w) {i : Nat} :
    WorldOk cfg { w with heap := w.heap.set i none } := by
  refine ⟨h.1, fun s hs => ?_⟩
  rcases List.mem_or_eq_of_mem_set hs with hs | hs
  · exact h.2 s hs
  · cases hs

theorem clone_live {c c' : Ctx} (h : LiveCtx c) (e : (contextClone c).val = some c') :
    LiveCtx c' := h.clone e

theorem step_ok {cfg : CombCfg} (hcfg : cfg.Build) {w w' : World}
    (h : WorldOk cfg w) {op : CtxOp} {r : Int × Nat} (hs : w.step op = some (w', r)) :
    WorldOk cfg w' := by
  have hstat : w.static.gen.cfg = cfg := by rw [h.1]; rfl
  cases op with
  | create junk flags =>
    simp only [World.step, Option.some.injEq, Prod.mk.injEq] at hs
    rw [← hs.1]
    refine h.add fun c hc => ?_
    exact LiveCtx.create (by simpa [hstat] using hcfg) hc
  | preallocatedCreate junk flags =>
    simp only [World.step, Option.some.injEq, Prod.mk.injEq] at hs
    rw [← hs.1]
    refine h.add fun c hc => ?_
    exact LiveCtx.preallocatedCreate (by simpa [hstat] using hcfg) hc
  | clone ref =>
    simp only [World.step, Option.bind_eq_bind, Option.bind_eq_some_iff, Option.pure_def,
      Option.some.injEq, Prod.mk.injEq] at hs
    obtain ⟨c, hc, rfl, -⟩ := hs
    refine h.add fun c' hc' => ?_
    cases ref with
    | none =>
      have : c = contextStatic cfg := by
        rw [← h.1]; exact (Option.some.inj hc).symm
      rw [this] at hc'
      cases hc'
    | some i => exact (h.get hc).clone hc'
  | preallocatedClone ref prealloc =>
    simp only [World.step, Option.bind_eq_bind, Option.bind_eq_some_iff, Option.pure_def,
      Option.some.injEq, Prod.mk.injEq] at hs
    obtain ⟨c, hc, rfl, -⟩ := hs
    refine h.add fun c' hc' => ?_
    cases ref with
    | none =>
      have : c = contextStatic cfg := by
        rw [← h.1]; exact (Option.some.inj hc).symm
      rw [this] at hc'
      cases prealloc <;> cases hc'
    | some i =>
      cases prealloc
      · cases hc'
      · exact (h.get hc).preallocatedClone hc'
  | randomize ref seed =>
    simp only [World.step, Option.bind_eq_bind, Option.bind_eq_some_iff, Option.pure_def,
      Option.some.injEq, Prod.mk.injEq] at hs
    obtain ⟨c, hc, rfl, -⟩ := hs
    cases ref with
    | none =>
      have : c = contextStatic cfg := by
        rw [← h.1]; exact (Option.some.inj hc).symm
      subst this
      exact ⟨rfl, h.2⟩
    | some i => exact h.set ((h.get hc).randomize seed)
  | setIllegal ref fn data =>
    simp only [World.step, Option.bind_eq_bind, Option.bind_eq_some_iff, Option.pure_def,
      Option.some.injEq, Prod.mk.injEq] at hs
    obtain ⟨c, hc, rfl, -⟩ := hs
    cases ref with
    | none =>
      have : c = contextStatic cfg := by
        rw [← h.1]; exact (Option.some.inj hc).symm
      subst this
      exact ⟨rfl, h.2⟩
    | some i => exact h.set ((h.get hc).setIllegal fn data)
  | setError ref fn data =>
    simp only [World.step, Option.bind_eq_bind, Option.bind_eq_some_iff, Option.pure_def,
      Option.some.injEq, Prod.mk.injEq] at hs
    obtain ⟨c, hc, rfl, -⟩ := hs
    cases ref with
    | none =>
      have : c = contextStatic cfg := by
        rw [← h.1]; exact (Option.some.inj hc).symm
      subst this
      exact ⟨rfl, h.2⟩
    | some i => exact h.set ((h.get hc).setError fn data)
  | destroy ref =>
    cases ref with
    | none =>
      simp only [World.step, Option.some.injEq, Prod.mk.injEq] at hs
      rw [← hs.1]; exact h
    | some i =>
      simp only [World.step, Option.bind_eq_bind, Option.bind_eq_some_iff] at hs
      obtain ⟨s, hsl, hs⟩ := hs
      split at hs
      · simp only [Option.pure_def, Option.some.injEq, Prod.mk.injEq] at hs
        have hl := h.slot hsl
        have : (contextDestroy s.ctx).val = none := by
          simp [contextDestroy, contextIsProper, ecmultGenIsBuilt, hl.ok.built]
        rw [this] at hs
        rw [← hs.1]
        exact heap_set h
      · cases hs
  | preallocatedDestroy ref =>
    cases ref with
    | none =>
      simp only [World.step, Option.some.injEq, Prod.mk.injEq] at hs
      rw [← hs.1]
      refine ⟨?_, h.2⟩
      simp only [h.1]; rfl
    | some i =>
      simp only [World.step, Option.bind_eq_bind, Option.bind_eq_some_iff] at hs
      obtain ⟨s, hsl, hs⟩ := hs
      split at hs
      · cases hs
      · simp only [Option.pure_def, Option.some.injEq, Prod.mk.injEq] at hs
        rw [← hs.1]
        exact heap_set h

/-- In every history of context calls without undefined behaviour, in a build with any of the three
shipped tables: the static context never changes, and every context that was not destroyed is a live
one. -/
theorem C39_history {cfg : CombCfg} (hcfg : cfg.Build)
    (ops : List CtxOp) {w : World} (h : (World.start cfg).run ops = some w) :
    w.static = contextStatic cfg ∧ ∀ s, some s ∈ w.heap → LiveCtx s.ctx := by
  have key : ∀ (ops : List CtxOp) (w0 : World), WorldOk cfg w0 → w0.run ops = some w →
      WorldOk cfg w := by
    intro ops
    induction ops with
    | nil => intro w0 h0 h; exact Option.some.inj h ▸ h0
    | cons op ops ih =>
      intro w0 h0 h
      simp only [World.run, Option.bind_eq_bind, Option.bind_eq_some_iff] at h
      obtain ⟨r, hr, h⟩ := h
      exact ih r.1 (step_ok hcfg h0 hr) h
  exact key ops _ ⟨rfl, by simp [World.start]⟩ h

/-- What a live context offers: it is proper, reports its size, can be cloned into an identical
context, randomized, and used for public key creation (and, in C10 and C24, signing). -/
theorem C39_live_supports {ctx : Ctx} (h : LiveCtx ctx) :
    contextIsProper ctx = true ∧
    contextPreallocatedCloneSize ctx = ⟨sizeofContext, 0, sizeofContext⟩ ∧
    contextClone ctx = ⟨1, 0, some ctx⟩ ∧
    contextPreallocatedClone ctx true = ⟨1, 0, some ctx⟩ ∧
    (∀ seed, (contextRandomize ctx seed).ret = 1 ∧ (contextRandomize ctx seed).illegal = 0) ∧
    (∀ old sk : Bytes, sk.length = 32 → 1 ≤ beNat sk → beNat sk < n →
      ecPubkeyCreate ctx (some old) (some sk) = ⟨1, 0, some (keyObject (beNat sk • G))⟩) ∧
    (contextDestroy ctx).illegal = 0 ∧ (contextDestroy ctx).val = none ∧
    (contextPreallocatedDestroy ctx).illegal = 0 := by
  have hb := h.ok.built
  refine ⟨hb, ?_, ?_, ?_, fun seed => ?_, fun old sk hl h1 hn => C16_pubkey_create h old hl h1 hn,
    ?_, ?_, ?_⟩
  · simp [contextPreallocatedCloneSize, contextIsProper, ecmultGenIsBuilt, hb]
  · simp [contextClone, contextPreallocatedClone, contextPreallocatedCloneSize, contextIsProper,
      ecmultGenIsBuilt, hb]
  · simp [contextPreallocatedClone, contextIsProper, ecmultGenIsBuilt, hb]
  · exact ⟨(C38_randomize_succeeds h seed).1, (C38_randomize_succeeds h seed).2.1⟩
  · simp [contextDestroy, contextPreallocatedDestroy, contextIsProper, ecmultGenIsBuilt, hb]
  · simp [contextDestroy, contextIsProper, ecmultGenIsBuilt, hb]
  · simp [contextPreallocatedDestroy, contextIsProper, ecmultGenIsBuilt, hb]

/-- The static context rejects everything that needs the signing tables or would change it: one
illegal-argument callback, return 0 or NULL, and no change of the context. -/
theorem C39_static_rejects (cfg : CombCfg) (seed : Option Bytes) (old : Bytes) (sk : Option Bytes)
    (fn data : Nat) (prealloc : Bool) :
    let c := contextStatic cfg
    contextRandomize c seed = ⟨0, 1, c⟩ ∧ contextClone c = ⟨0, 1, none⟩ ∧
    contextPreallocatedClone c prealloc = ⟨0, 1, none⟩ ∧
    contextPreallocatedCloneSize c = ⟨0, 1, 0⟩ ∧
    ecPubkeyCreate c (some old) sk = ⟨0, 1, some (List.replicate 64 0)⟩ ∧
    contextDestroy c = ⟨0, 1, some c⟩ ∧ contextPreallocatedDestroy c = ⟨0, 1, c⟩ ∧
    contextSetIllegalCallback true c fn data = ⟨0, 1, c⟩ ∧
    contextSetErrorCallback true c fn data = ⟨0, 1, c⟩ := by
  refine ⟨rfl, rfl, by cases prealloc <;> rfl, rfl, rfl, rfl, rfl, rfl, rfl⟩

/-- Creation: with every flag word whose type is "context" and without the testing bit a context is
returned and the reported size is that of a context; with any other flag word NULL is returned and
the callback is called. -/
theorem C39_create (junk : Ctx) (flags : UInt32) :
    (flags &&& flagsTypeMask = flagsTypeContext ∧ flags &&& flagsBitContextDeclassify = 0 →
      (contextCreate junk flags).val.isSome ∧ (contextCreate junk flags).illegal = 0 ∧
      contextPreallocatedSize flags = ⟨sizeofContext, 0, sizeofContext⟩) ∧
    (¬ (flags &&& flagsTypeMask = flagsTypeContext ∧ flags &&& flagsBitContextDeclassify = 0) →
      (contextCreate junk flags).val = none ∧ 0 < (contextCreate junk flags).illegal ∧
      (contextPreallocatedCreate junk flags).val = none ∧
      contextPreallocatedSize flags = ⟨0, 1, 0⟩) := by
  constructor
  · rintro ⟨h1, h2⟩
    have e : contextPreallocatedSize flags = ⟨sizeofContext, 0, sizeofContext⟩ := by
      simp [contextPreallocatedSize, h1, h2]
    refine ⟨?_, ?_, e⟩ <;>
      simp [contextCreate, contextPreallocatedCreate, e, sizeofContext]
  · intro h
    have e : contextPreallocatedSize flags = ⟨0, 1, 0⟩ := by
      unfold contextPreallocatedSize
      split
      · rfl
      · split
        · rfl
        · exfalso; apply h; constructor <;> (by_contra hh; contradiction)
    refine ⟨?_, ?_, ?_, e⟩ <;>
      simp [contextCreate, contextPreallocatedCreate, e]

example := (C39_create (contextStatic comb22) 1).1 (by decide)
example := (C39_create (contextStatic comb22) 2).2 (by decide)

/-- A new context starts from the defaults: whatever the memory held before (another context with
installed callbacks and random blinding, say), both callbacks are the default ones and the context is
the one that any other memory of the same build would have given. -/
theorem C39_new_context (junk junk' : Ctx) (hcfg : junk.gen.cfg = junk'.gen.cfg) {flags : UInt32} {c : Ctx}
    (h : (contextPreallocatedCreate junk flags).val = some c) :
    c.illegalCallback = ⟨0, 0⟩ ∧ c.errorCallback = ⟨0, 0⟩ ∧
    (contextPreallocatedCreate junk' flags).val = some c ∧
    (contextCreate junk flags).val = some c ∧ (contextCreate junk' flags).val = some c := by
  have hg : ecmultGenContextBuild junk.gen = ecmultGenContextBuild junk'.gen := by
    obtain ⟨⟨cfg, b, so, go, pb⟩, i, e, d⟩ := junk
    obtain ⟨⟨cfg', b', so', go', pb'⟩, i', e', d'⟩ := junk'
    dsimp only at hcfg
    subst hcfg
    simp only [ecmultGenContextBuild, ecmultGenBlind, genBlindReset]
  have he : (contextPreallocatedCreate junk' flags).val = (contextPreallocatedCreate junk flags).val := by
    simp only [contextPreallocatedCreate, hg]
  refine ⟨?_, ?_, he.trans h, h, he.trans h⟩ <;>
  · simp only [contextPreallocatedCreate] at h
    split at h
    · simp at h
    · simp only [Option.some.injEq] at h
      rw [← h]
      rfl

example (cb : Callback) :
    let used : Ctx := { contextStatic comb22 with illegalCallback := cb, errorCallback := cb }
    ∃ c, (contextPreallocatedCreate used 1).val = some c ∧ c.illegalCallback = ⟨0, 0⟩ := by
  intro used
  exact ⟨_, rfl, rfl⟩

/-- Destroying a context in caller memory wipes it: no trace of the blinding values that
randomization derived from secret seeds is left, the memory no longer holds a usable context (every
later call that needs one is refused), and the callbacks and the build configuration are the only
things that remain. -/
theorem C39_destroy_wipes {ctx : Ctx} (h : LiveCtx ctx) (seed : Option Bytes) (old : Bytes)
    (sk : Option Bytes) :
    let c := (contextPreallocatedDestroy ctx).val
    c.gen.scalarOffset = 0 ∧ c.gen.geOffset = ⟨0, 0, false⟩ ∧ c.gen.projBlind = 0 ∧
    contextIsProper c = false ∧ contextRandomize c seed = ⟨0, 1, c⟩ ∧
    contextClone c = ⟨0, 1, none⟩ ∧ contextPreallocatedDestroy c = ⟨0, 1, c⟩ ∧
    ecPubkeyCreate c (some old) sk = ⟨0, 1, some (List.replicate 64 0)⟩ ∧
    c.illegalCallback = ctx.illegalCallback ∧ c.errorCallback = ctx.errorCallback ∧
    c.gen.cfg = ctx.gen.cfg := by
  have hb := h.ok.built
  have e : (contextPreallocatedDestroy ctx).val =
      { ctx with gen := ecmultGenContextClear ctx.gen } := by
    simp [contextPreallocatedDestroy, contextIsProper, ecmultGenIsBuilt, hb]
  rw [e]
  exact ⟨rfl, rfl, rfl, rfl, rfl, rfl, rfl, rfl, rfl, rfl, rfl⟩

/-- Installing a callback changes that callback and nothing else. -/
theorem C39_set_callbacks (ctx : Ctx) (fn data : Nat) :
    contextSetIllegalCallback false ctx fn data =
      ⟨0, 0, ⟨ctx.gen, ⟨fn, data⟩, ctx.errorCallback, ctx.declassify⟩⟩ ∧
    contextSetErrorCallback false ctx fn data =
      ⟨0, 0, ⟨ctx.gen, ctx.illegalCallback, ⟨fn, data⟩, ctx.declassify⟩⟩ :=
  ⟨rfl, rfl⟩

/-- The self test that runs on every creation passes: the error callback is not called. -/
theorem C39_selftest : selftest = 0 := by
  have h1 := Hash.write_absorbed (Hash.init_absorbed Hash.uninit Hash.uninit_buf) selftestInput
  have h2 := (Hash.finalize_spec h1).1
  rw [List.nil_append, Hash.fastSha_eq] at h2
  have h3 : (memcmpVar (Hash.fastSha selftestInput) selftestOutput 32 == 0) = true := by
    decide +kernel
  simp only [selftest, selftestPasses, h2, h3]
  rfl

/-- A history: create, clone, randomize the clone, destroy the original; and one with an attempt to
randomize the static context. -/
example : ∃ w, (World.start comb22).run [.create (contextStatic comb22) 1, .clone (some 0),
      .randomize (some 1) (some (List.replicate 32 5)), .destroy (some 0), .randomize none none]
      = some w ∧ w.heap.length = 2 ∧ w.slot 0 = none := ⟨_, rfl, rfl, rfl⟩

end Secp
