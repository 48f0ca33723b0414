import Verif.Props.C04
import Verif.Props.C31
import Verif.Props.C33
import Verif.Props.C79

/-!
# C79: the MuSig example
-/

namespace Secp
open Model Spec

seal keyObject beBytes xonly compressed keypairObject secnonceObject pubnonceObject aggnonceObject cacheObject
  sessionFor musigNonce partialSigObject

@[simp] theorem callMem_some {α : Type} (o : Out α) : callMem (some o) = call o := rfl

/-- What one signer starts from: its uninitialised memory, a secret key and session randomness. -/
structure MuIn where
  mem : ExSigner
  buf : Bytes
  sk : Bytes
  rand : Bytes

/-- The input of the program for this signer. -/
def MuIn.input (x : MuIn) : ExInput := ⟨x.mem, x.buf, some x.sk, some x.rand⟩

/-- The public key. -/
noncomputable def MuIn.key (x : MuIn) : Pt := beNat x.sk • G

/-- The secret key and the nonces of BIP-327 for message `m`. -/
noncomputable def MuIn.signer (m : Bytes) (x : MuIn) : Signer :=
  ⟨((beNat x.sk : ℕ) : Fn), musigNonce x.rand (some x.sk) x.key none (some m) none 0,
    musigNonce x.rand (some x.sk) x.key none (some m) none 1⟩

/-- The key is valid, the session randomness is not zero, and neither are the nonces. -/
structure MuIn.Good (m : Bytes) (x : MuIn) : Prop where
  buf : x.buf.length = 32
  sk : x.sk.length = 32
  key : GoodKey x.sk
  rand : x.rand.length = 32
  nonzero : ∃ b ∈ x.rand, b ≠ 0
  k₁ : (x.signer m).k₁ ≠ 0
  k₂ : (x.signer m).k₂ ≠ 0

/-- The signer after `create_keypair`. -/
noncomputable def MuIn.made (x : MuIn) : ExSigner :=
  { x.mem with keypair := keypairObject ((beNat x.sk : ℕ) : Fn), pubkey := keyObject x.key }

/-- The signer after the nonces are made. -/
noncomputable def MuIn.nonced (m : Bytes) (x : MuIn) : ExSigner :=
  { x.made with
    secnonce := (x.signer m).secnonce
    pubnonce := pubnonceObject (x.signer m).nonce.1 (x.signer m).nonce.2 }

theorem cast_val {sk : Bytes} (hg : GoodKey sk) : ((beNat sk : ℕ) : Fn).val = beNat sk := by
  rw [ZMod.val_natCast, Nat.mod_eq_of_lt hg.2]

theorem MuIn.signer_key {m : Bytes} {x : MuIn} (hg : GoodKey x.sk) : (x.signer m).key = x.key := by
  show ((beNat x.sk : ℕ) : Fn).val • G = _
  rw [cast_val hg, MuIn.key]

theorem musig_createAll {ctx : Ctx} (hctx : LiveCtx ctx) {m : Bytes} : ∀ {xs : List MuIn},
    (∀ x ∈ xs, x.Good m) → exCreateAll ctx (xs.map MuIn.input) = .ok (xs.map MuIn.made)
  | [], _ => rfl
  | x :: xs, h => by
    have hx := h x (by simp)
    have ih := musig_createAll hctx (xs := xs) fun y hy => h y (by simp [hy])
    have e : exCreateKeypair ctx x.input = .ok x.made := by
      rw [exCreateKeypair, MuIn.input]
      simp only [fillRandom_some, run_ok]
      rw [keypairCreate_good hctx _ hx.sk hx.key, call_legal, run_ok]
      simp only [orExit_one, run_ok, Option.getD_some]
      rw [keypairPub_obj, call_legal, run_ok]
      simp only [orExit_one, run_ok, Option.getD_some]
      rw [MuIn.made, MuIn.key, cast_val hx.key]
      rfl
    rw [List.map_cons, exCreateAll, e, run_ok, ih, run_ok]
    rfl

theorem musig_nonces {ctx : Ctx} (hctx : LiveCtx ctx) {m : Bytes} (hm : m.length = 32) : ∀ {xs : List MuIn},
    (∀ x ∈ xs, x.Good m) →
    exNonces ctx m ((xs.map MuIn.input).zip (xs.map MuIn.made)) = .ok (xs.map (MuIn.nonced m))
  | [], _ => rfl
  | x :: xs, h => by
    have hx := h x (by simp)
    have ih := musig_nonces hctx hm (xs := xs) fun y hy => h y (by simp [hy])
    rw [List.map_cons, List.map_cons, List.zip_cons_cons, exNonces,
      show x.input.secrand = some x.rand from rfl, show x.input.buf = x.buf from rfl]
    simp only [fillRandom_some, run_ok]
    have hsec : keypairSec (some x.buf) (some x.made.keypair) = ⟨1, 0, some x.sk⟩ := by
      show keypairSec _ (some (keypairObject _)) = _
      rw [keypairSec_obj _ hx.buf, cast_val hx.key,
        show beBytes 32 (beNat x.sk) = x.sk from beNat_inj (by rw [Hash.beBytes_length, hx.sk])
          (by rw [beNat_beBytes, Nat.mod_eq_of_lt (lt_trans hx.key.2 n_lt_256)])]
    have hgen := C33_nonce_gen hctx x.made.secnonce x.made.pubnonce hx.rand hx.nonzero (sk := some x.sk)
      (fun s hs => by obtain rfl := Option.some.inj hs; exact ⟨hx.sk, hx.key.1, hx.key.2⟩)
      (P := x.key) (goodKey_ne hx.key) (cache := none) (fun c hc => by cases hc) (msg := some m) (ex := none)
      (fun y hy => by obtain rfl := Option.some.inj hy; exact hm) (fun y hy => by cases hy) hx.k₁ hx.k₂
    rw [hsec, call_legal, run_ok]
    simp only [orExit_one, run_ok]
    have hgen' : musigNonceGen ctx (some x.made.secnonce) (some x.made.pubnonce) (some x.rand) (some x.sk)
        (some x.made.pubkey) (some m) none none = _ := hgen
    rw [hgen', call_legal, run_ok]
    simp only [orExit_one, run_ok, Option.getD_some]
    rw [ih, run_ok, List.map_cons, MuIn.nonced, Signer.secnonce, MuIn.signer_key hx.key]
    rfl

/-- The partial signature value of a signer. -/
noncomputable def MuIn.value (m : Bytes) (Ps : List Pt) (c : KeyaggCtx) (R : Pt) (b e : Fn) (x : MuIn) : Fn :=
  partialValue Ps c (UInt8.ofNat (ptY R % 2)) b e (x.signer m).d (x.signer m).k₁ (x.signer m).k₂

/-- The signer after `secp256k1_musig_partial_sign`. -/
noncomputable def MuIn.signed (m : Bytes) (v : Fn) (x : MuIn) : ExSigner :=
  { x.nonced m with partialSig := partialSigObject v, secnonce := List.replicate 132 0 }

theorem musig_sign_one {m : Bytes} {Ps : List Pt} {c : KeyaggCtx} (hc : KeyaggOk c) {x : MuIn}
    (hx : x.Good m) (R : Pt) (b e s : Fn) (old : Bytes) :
    musigPartialSign (some old) (some (x.nonced m).secnonce) (some (x.nonced m).keypair)
      (some (cacheObject Ps c)) (some (sessionObject (UInt8.ofNat (ptY R % 2)) (xonly R) b e s)) =
      ⟨1, 0, (some (partialSigObject (x.value m Ps c R b e)), some (List.replicate 132 0))⟩ ∧
    musigPartialSigVerify (some (partialSigObject (x.value m Ps c R b e))) (some (x.nonced m).pubnonce)
      (some (x.nonced m).pubkey) (some (cacheObject Ps c))
      (some (sessionObject (UInt8.ofNat (ptY R % 2)) (xonly R) b e s)) = ⟨1, 0, ()⟩ := by
  have hd : (x.signer m).d ≠ 0 := cast_ne_zero (by have := hx.key.1; omega) hx.key.2
  have h1 := C30_sign (Ps := Ps) (k2 := (x.signer m).k₂) hc hd (fun h => hx.k₁ h.1) (UInt8.ofNat (ptY R % 2)) (xonly_length R) b e s old
  obtain ⟨sig, h2, h3⟩ := C30_sign_verify (Ps := Ps) hc hd hx.k₁ hx.k₂ (UInt8.ofNat (ptY R % 2))
    (xonly_length R) b e s old
  rw [h1] at h2
  obtain rfl := Option.some.inj (Prod.mk.inj (congrArg Out.val h2)).1
  refine ⟨h1, ?_⟩
  have hk : (x.signer m).d.val • G = x.key := MuIn.signer_key hx.key
  rw [hk] at h3
  exact h3

theorem musig_partial {m : Bytes} (hm : m.length = 32) {Ps : List Pt} {c : KeyaggCtx} (hc : KeyaggOk c)
    {A B R : Pt} {b e s : Fn}
    (hs : sessionFor A B c m = sessionObject (UInt8.ofNat (ptY R % 2)) (xonly R) b e s) :
    ∀ {xs : List MuIn}, (∀ x ∈ xs, x.Good m) → ∀ old : Bytes,
    exPartial m (some (aggnonceObject A B)) (some (cacheObject Ps c)) (xs.map (MuIn.nonced m)) (some old) =
      .ok (xs.map fun x => x.signed m (x.value m Ps c R b e),
        some (if xs = [] then old else sessionObject (UInt8.ofNat (ptY R % 2)) (xonly R) b e s))
  | [], _, _ => rfl
  | x :: xs, h, old => by
    have hx := h x (by simp)
    have ih := musig_partial hm (Ps := Ps) hc hs (xs := xs) (fun y hy => h y (by simp [hy]))
      (sessionObject (UInt8.ofNat (ptY R % 2)) (xonly R) b e s)
    rw [ite_self] at ih
    rw [List.map_cons, exPartial, nonceProcess_eq hc A B hm old, hs, call_legal, run_ok]
    simp only [orExit_one, run_ok]
    rw [(musig_sign_one hc hx R b e s _).1, call_legal, run_ok]
    simp only [orExit_one, run_ok, Option.getD_some]
    rw [ih, run_ok, if_neg (List.cons_ne_nil x xs), List.map_cons]
    rfl

theorem musig_verifyAll {m : Bytes} {Ps : List Pt} {c : KeyaggCtx} (hc : KeyaggOk c) (R : Pt) (b e s : Fn) :
    ∀ {xs : List MuIn}, (∀ x ∈ xs, x.Good m) →
    exVerifyAll (some (cacheObject Ps c)) (some (sessionObject (UInt8.ofNat (ptY R % 2)) (xonly R) b e s))
      (xs.map fun x => x.signed m (x.value m Ps c R b e)) = .ok ()
  | [], _ => rfl
  | x :: xs, h => by
    have hx := h x (by simp)
    have ih := musig_verifyAll hc R b e s (Ps := Ps) (xs := xs) (fun y hy => h y (by simp [hy]))
    rw [List.map_cons, exVerifyAll]
    have := (musig_sign_one (Ps := Ps) hc hx R b e s []).2
    change musigPartialSigVerify (some (x.signed m (x.value m Ps c R b e)).partialSig)
      (some (x.signed m (x.value m Ps c R b e)).pubnonce) (some (x.signed m (x.value m Ps c R b e)).pubkey)
      _ _ = _ at this
    rw [this, call_legal, run_ok]
    simp only [orExit_one, run_ok]
    exact ih

/-- The final nonce of the session. -/
noncomputable def musigFinal (m : Bytes) (c : KeyaggCtx) (xs : List MuIn) : Pt :=
  let A := (xs.map fun x => (x.signer m).k₁.val • G).sum
  let B := (xs.map fun x => (x.signer m).k₂.val • G).sum
  A + (nonceCoef A B c.Q m).val • B

theorem musig_sign {ctx : Ctx} (hctx : LiveCtx ctx) {u : ℕ → ℕ → Bytes} {m : Bytes} (hm : m.length = 32)
    {xs : List MuIn} (h0 : xs ≠ []) (h : ∀ x ∈ xs, x.Good m) {Ps : List Pt} (hp : Ps.Perm (xs.map MuIn.key))
    {ts : List (Bool × Bytes)} {c : KeyaggCtx} (hQ : aggPoint Ps ≠ 0) (ht : tweakSeq Ps ts = some c)
    {old : Bytes} (ho : old.length = 64) :
    ∃ sig signers, exSign ctx u (xs.map MuIn.input) (xs.map MuIn.made) (some (cacheObject Ps c)) m (some old) =
        .ok (signers, some sig) ∧ sig.length = 64 ∧ signers.length = xs.length ∧
      (∀ s ∈ signers, s.secnonce = List.replicate 132 0) ∧
      ((schnorrsigVerify (some sig) (some m) 32 (some (keyObject (evenY c.Q)))).ret = 1 ↔
        musigFinal m c xs ≠ 0) := by
  obtain ⟨hc1, hc2, -⟩ := C29_tweak_invariant hQ ht
  have hc : KeyaggOk c := ⟨hc1, hc2⟩
  have hne : (xs.map (MuIn.signer m)).map Signer.nonce ≠ [] := by simpa using h0
  have hnz : ∀ R ∈ (xs.map (MuIn.signer m)).map Signer.nonce, R.1 ≠ 0 ∧ R.2 ≠ 0 := by
    intro R hR
    obtain ⟨s, hsm, rfl⟩ := List.mem_map.1 hR
    obtain ⟨x, hx, rfl⟩ := List.mem_map.1 hsm
    rw [Signer.nonce, val_smul, val_smul]
    exact ⟨smul_G_ne (h x hx).k₁, smul_G_ne (h x hx).k₂⟩
  have hagg := C35_nonce_agg hne hnz (u 1 132)
  have hkeys : (xs.map (MuIn.signer m)).map Signer.key = xs.map MuIn.key := by
    rw [List.map_map]
    exact List.map_congr_left fun x hx => MuIn.signer_key (h x hx).key
  have hfin : musigFinal m c xs = (((xs.map (MuIn.signer m)).map Signer.nonce).map Prod.fst).sum +
      (nonceCoef (((xs.map (MuIn.signer m)).map Signer.nonce).map Prod.fst).sum
        (((xs.map (MuIn.signer m)).map Signer.nonce).map Prod.snd).sum c.Q m).val •
        (((xs.map (MuIn.signer m)).map Signer.nonce).map Prod.snd).sum := by
    simp only [musigFinal, List.map_map]
    rfl
  rw [hfin]
  generalize hA : (((xs.map (MuIn.signer m)).map Signer.nonce).map Prod.fst).sum = A at *
  generalize hB : (((xs.map (MuIn.signer m)).map Signer.nonce).map Prod.snd).sum = B at *
  generalize hR : finalNonce A B c.Q m = R
  generalize hb : nonceCoef A B c.Q m = b
  generalize he : musigChallenge A B c.Q m = e
  have hsess : sessionFor A B c m = sessionObject (UInt8.ofNat (ptY R % 2)) (xonly R) b e
      (e * (signY c.Q * c.tacc)) := by
    rw [sessionFor, hR, hb, he]
  have hvs : xs.map (fun x => x.value m Ps c R b e) ≠ [] := by simpa using h0
  have hpart := musig_partial hm (Ps := Ps) hc hsess h (u 2 133)
  rw [if_neg h0] at hpart
  have hver := musig_verifyAll (Ps := Ps) hc R b e (e * (signY c.Q * c.tacc)) h
  have hsum := partialSigAgg_eq hvs (UInt8.ofNat (ptY R % 2)) (xonly_length R) b e (e * (signY c.Q * c.tacc)) ho
  have hav := agg_verify (ss := xs.map (MuIn.signer m)) (by rw [hkeys]; exact hp) hQ ht hm hA hB hR hb he
  rw [List.map_map] at hav
  have hpn : (xs.map (MuIn.nonced m)).map ExSigner.pubnonce =
      ((xs.map (MuIn.signer m)).map Signer.nonce).map fun R => pubnonceObject R.1 R.2 := by
    simp only [List.map_map]
    rfl
  have hps : (xs.map fun x => x.signed m (x.value m Ps c R b e)).map ExSigner.partialSig =
      (xs.map fun x => x.value m Ps c R b e).map partialSigObject := by
    simp only [List.map_map]
    rfl
  refine ⟨_, xs.map fun x => x.signed m (x.value m Ps c R b e), ?_, ?_, ?_, ?_, hav⟩
  · rw [exSign, musig_nonces hctx hm h, run_ok, hpn, hagg, call_legal, run_ok]
    simp only [orExit_one, run_ok]
    rw [hpart, run_ok]
    simp only [hver, run_ok]
    rw [hps, hsum, call_legal, run_ok]
    rfl
  · rw [List.length_append, xonly_length, beBytes_len]
  · rw [List.length_map]
  · intro s hs
    obtain ⟨x, -, rfl⟩ := List.mem_map.1 hs
    rfl

/-- The tweaks of the example. -/
def exTweaks : List (Bool × Bytes) := [(false, exPlainTweak), (true, exXonlyTweak)]

theorem musig_tweak (u : ℕ → ℕ → Bytes) {Ps : List Pt} (hQ : aggPoint Ps ≠ 0) (old : Bytes) :
    exTweak u (some old) (some (cacheObject Ps (keyaggInit Ps))) =
      match tweakSeq Ps exTweaks with
      | some c => .ok (some (keyObject (evenY c.Q)), some (cacheObject Ps c))
      | none => .error .exitFailure := by
  have l1 : exPlainTweak.length = 32 := by decide +kernel
  have l2 : exXonlyTweak.length = 32 := by decide +kernel
  have e : tweakSeq Ps exTweaks =
      (applyTweak (keyaggInit Ps) false exPlainTweak).bind fun c => applyTweak c true exXonlyTweak := by
    unfold tweakSeq exTweaks
    simp only [List.foldlM_cons, List.foldlM_nil, bind_pure]
    rfl
  have k1 : ∀ c, tweakSeq Ps [(false, exPlainTweak)] = some c → KeyaggOk c := fun c h =>
    ⟨(C29_tweak_invariant hQ h).1, (C29_tweak_invariant hQ h).2.1⟩
  have k2 : ∀ c, tweakSeq Ps exTweaks = some c → KeyaggOk c := fun c h =>
    ⟨(C29_tweak_invariant hQ h).1, (C29_tweak_invariant hQ h).2.1⟩
  have k0 : KeyaggOk (keyaggInit Ps) := ⟨hQ, Or.inl rfl⟩
  have e1 : tweakSeq Ps [(false, exPlainTweak)] = applyTweak (keyaggInit Ps) false exPlainTweak := by
    unfold tweakSeq
    simp only [List.foldlM_cons, List.foldlM_nil, bind_pure]
  rw [e1] at k1
  rw [e] at k2 ⊢
  unfold exTweak
  clear e e1
  generalize exPlainTweak = t1 at *
  generalize exXonlyTweak = t2 at *
  rw [(C29_tweak k0 l1 none).1]
  cases h1 : applyTweak (keyaggInit Ps) false t1 with
  | none => rfl
  | some c1 =>
    simp only [Option.bind_some]
    rw [call_legal, run_ok]
    simp only [orExit_one, run_ok]
    rw [(C29_tweak (k1 c1 h1) l2 (some (u 0 64))).2]
    cases h2 : applyTweak c1 true t2 with
    | none => rfl
    | some c =>
      simp only
      rw [call_legal, run_ok]
      simp only [orExit_one, run_ok, Option.map_some]
      rw [C26_from_pubkey (k2 c (by rw [h1, Option.bind_some, h2])).finite, call_legal, run_ok]
      rfl

theorem sorted_unique {Ps Qs : List Pt} (h : Ps.Perm Qs)
    (h1 : Ps.Pairwise fun P Q => compressed P ≤ compressed Q)
    (h2 : Qs.Pairwise fun P Q => compressed P ≤ compressed Q) : Ps = Qs := by
  refine List.Perm.eq_of_pairwise (le := fun P Q => compressed P ≤ compressed Q) ?_ h1 h2 h
  intro P Q _ _ a b
  exact compressed_injective (List.le_antisymm a b)

theorem musig_sort {m : Bytes} {xs : List MuIn} (h : ∀ x ∈ xs, x.Good m) {Ps : List Pt}
    (hp : Ps.Perm (xs.map MuIn.key)) (hsort : Ps.Pairwise fun P Q => compressed P ≤ compressed Q) :
    ∃ idx : List ℕ, ecPubkeySort (fun i => ((xs.map MuIn.made)[i]?).map ExSigner.pubkey)
        (some (List.range (xs.map MuIn.made).length)) = some ⟨1, 0, some idx⟩ ∧
      (idx.map fun i => (((xs.map MuIn.made)[i]?).map ExSigner.pubkey).getD []) = Ps.map keyObject := by
  have hv : ∀ i ∈ List.range (xs.map MuIn.made).length,
      ((xs.map MuIn.key)[i]?).getD 0 ≠ 0 ∧ ((xs.map MuIn.made)[i]?).map ExSigner.pubkey =
        some (keyObject (((xs.map MuIn.key)[i]?).getD 0)) := by
    intro i hi
    rw [List.mem_range, List.length_map] at hi
    rw [List.getElem?_map, List.getElem?_map, List.getElem?_eq_getElem hi]
    exact ⟨goodKey_ne (h _ (List.getElem_mem hi)).key, rfl⟩
  obtain ⟨idx, h1, h2, h3⟩ := C04_sort_valid _ _ (fun i => ((xs.map MuIn.key)[i]?).getD 0) hv
  refine ⟨idx, h1, ?_⟩
  have hall : (List.range (xs.map MuIn.made).length).map (fun i => ((xs.map MuIn.key)[i]?).getD 0) =
      xs.map MuIn.key := by
    refine List.ext_getElem (by simp) fun i hi hi' => ?_
    simp only [List.length_map] at hi'
    simp [List.getElem?_eq_getElem hi']
  have hperm : (idx.map fun i => ((xs.map MuIn.key)[i]?).getD 0).Perm (xs.map MuIn.key) := by
    have := h2.map fun i => ((xs.map MuIn.key)[i]?).getD 0
    rwa [hall] at this
  have hPs := sorted_unique (hperm.trans hp.symm) (List.pairwise_map.2 h3) hsort
  rw [← hPs, List.map_map]
  refine List.map_congr_left fun i hi => ?_
  rw [(hv i (h2.subset hi)).2]
  rfl

end Secp
