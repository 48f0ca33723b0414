import Verif.Props.C23
import Verif.Props.C30
import Verif.Props.C35

/-!
# C31: MuSig aggregate signatures verify as BIP-340 signatures
-/

namespace Secp
open Model Spec

seal keyObject beBytes keysHash compressed

/-- A signer: secret key and the two secret nonces. -/
structure Signer where
  d : Fn
  k₁ : Fn
  k₂ : Fn

/-- The public key of a signer. -/
noncomputable def Signer.key (s : Signer) : Pt := s.d.val • G

/-- The public nonce of a signer. -/
noncomputable def Signer.nonce (s : Signer) : Pt × Pt := (s.k₁.val • G, s.k₂.val • G)

/-- The secret nonce object of a signer. -/
noncomputable def Signer.secnonce (s : Signer) : Bytes := secnonceObject s.k₁ s.k₂ s.key

theorem partialSigSum_eq : ∀ (vs : List Fn) (s : Fn),
    partialSigSum (vs.map partialSigObject) s = some (s + vs.sum)
  | [], s => by simp [partialSigSum]
  | v :: vs, s => by
    rw [List.map_cons, partialSigSum, partialSigLoad_obj]
    simp only
    rw [partialSigSum_eq vs, List.sum_cons, add_assoc]

theorem partialSigAgg_eq {vs : List Fn} (h0 : vs ≠ []) (par : UInt8) {r : Bytes} (hr : r.length = 32)
    (b e s : Fn) {old : Bytes} (ho : old.length = 64) :
    musigPartialSigAgg (some old) (some (sessionObject par r b e s)) (some (vs.map partialSigObject)) =
      ⟨1, 0, some (r ++ beBytes 32 (s + vs.sum).val)⟩ := by
  have hl : (vs.map partialSigObject).length > 0 := by
    rw [List.length_map]; exact List.length_pos_iff.2 h0
  unfold musigPartialSigAgg
  simp only
  rw [if_neg (fun h => h hl), sessionLoad_obj par hr]
  simp only
  rw [partialSigSum_eq]
  simp only
  rw [scGetB32_eq, take32 hr]
  have e1 : put old 32 (beBytes 32 (s + vs.sum).val) = old.take 32 ++ beBytes 32 (s + vs.sum).val := by
    rw [put, beBytes_len, List.drop_of_length_le (by rw [ho]), List.append_nil]
  have hl32 : (old.take 32).length = 32 := by rw [List.length_take, ho]; rfl
  rw [e1, put, List.take_zero, List.nil_append, Nat.zero_add, hr, List.drop_left' hl32]

theorem sum_fst_smul (ss : List Signer) :
    ((ss.map Signer.nonce).map Prod.fst).sum = (ss.map Signer.k₁).sum • G ∧
    ((ss.map Signer.nonce).map Prod.snd).sum = (ss.map Signer.k₂).sum • G := by
  induction ss with
  | nil => simp [fn_zero_smul]
  | cons s ss ih =>
    simp only [List.map_cons, List.sum_cons]
    rw [ih.1, ih.2, add_smul, add_smul, Signer.nonce, val_smul, val_smul]
    exact ⟨rfl, rfl⟩

/-- The sum of the partial signatures, on the curve. -/
theorem partial_sum (Ps : List Pt) (c : KeyaggCtx) (par : UInt8) (b e : Fn) (ss : List Signer) :
    (ss.map fun s => partialValue Ps c par b e s.d s.k₁ s.k₂).sum • G =
      paritySign par • ((ss.map Signer.k₁).sum • G + b • (ss.map Signer.k₂).sum • G) +
      (e * (signY c.Q * c.gacc)) • ((ss.map Signer.key).map fun P => (keyCoef Ps P).val • P).sum := by
  induction ss with
  | nil => simp [fn_zero_smul]
  | cons s ss ih =>
    simp only [List.map_cons, List.sum_cons]
    rw [add_smul, ih, partialValue, Signer.key, val_smul s.d, val_smul (keyCoef Ps (s.d • G))]
    generalize keyCoef Ps (s.d • G) = a
    generalize ((ss.map Signer.key).map fun P => (keyCoef Ps P).val • P).sum = T
    simp only [add_smul, smul_add, ← mul_smul]
    rw [show e * a * (signY c.Q * c.gacc) * s.d = e * (signY c.Q * c.gacc) * (a * s.d) by ring,
      mul_add, add_smul]
    abel

theorem paritySign_signY (R : Pt) : paritySign (UInt8.ofNat (ptY R % 2)) = signY R := by
  unfold paritySign signY
  rcases Nat.mod_two_eq_zero_or_one (ptY R) with h | h <;> rw [h] <;> rfl

theorem schnorrChallenge_evenY (r : Bytes) (Q : Pt) (m : Bytes) :
    schnorrChallenge r (evenY Q) m = schnorrChallenge r Q m := by
  rw [schnorrChallenge, schnorrChallenge, xonly_evenY]

/-- A signature whose `s` satisfies `s G = T + e P` for the challenge of `R`. -/
theorem schnorr_iff {Q R T : Pt} (hR : R ≠ 0) {m : Bytes} {s : Fn}
    (h : s • G = T + ((schnorrChallenge (xonly R) Q m : ℕ) : Fn) • evenY Q) :
    SchnorrValid (evenY Q) m (xonly R ++ beBytes 32 s.val) ↔ T ≠ 0 ∧ ptY T % 2 = 0 ∧ ptX T = ptX R := by
  have e1 : (xonly R ++ beBytes 32 s.val).take 32 = xonly R := List.take_left' (xonly_length R)
  have e2 : (xonly R ++ beBytes 32 s.val).drop 32 = beBytes 32 s.val := List.drop_left' (xonly_length R)
  have e3 : s.val • G - schnorrChallenge (xonly R) Q m • evenY Q = T := by
    rw [val_smul, h, natCast_smul]; abel
  unfold SchnorrValid
  simp only
  rw [e1, e2, beNat_xonly, beNat_beBytes, Nat.mod_eq_of_lt (fn_lt s), schnorrChallenge_evenY, e3]
  constructor
  · exact fun h => h.2.2
  · exact fun h => ⟨ptX_lt R, ZMod.val_lt s, h⟩

/-- The signature that the partial signatures add up to, when the keys were aggregated in any order. -/
theorem agg_verify {Ps : List Pt} {ss : List Signer} (hp : Ps.Perm (ss.map Signer.key))
    {ts : List (Bool × Bytes)} {c : KeyaggCtx} (hQ : aggPoint Ps ≠ 0) (ht : tweakSeq Ps ts = some c)
    {m : Bytes} (hm : m.length = 32) {A B R : Pt} {b e : Fn}
    (hA : ((ss.map Signer.nonce).map Prod.fst).sum = A) (hB : ((ss.map Signer.nonce).map Prod.snd).sum = B)
    (hR : finalNonce A B c.Q m = R) (hb : nonceCoef A B c.Q m = b) (he : musigChallenge A B c.Q m = e) :
    (schnorrsigVerify (some (xonly R ++ beBytes 32 (e * (signY c.Q * c.tacc) + (ss.map fun s =>
        partialValue Ps c (UInt8.ofNat (ptY R % 2)) b e s.d s.k₁ s.k₂).sum).val)) (some m) 32
      (some (keyObject (evenY c.Q)))).ret = 1 ↔ A + b.val • B ≠ 0 := by
  obtain ⟨hc1, hc2, hc3⟩ := C29_tweak_invariant hQ ht
  rw [val_smul, val_smul] at hc3
  have hR0 : R ≠ 0 := hR ▸ finalNonce_ne A B c.Q m
  have hS := partial_sum Ps c (UInt8.ofNat (ptY R % 2)) b e ss
  obtain ⟨f1, f2⟩ := sum_fst_smul ss
  rw [hA] at f1
  rw [hB] at f2
  rw [← f1, ← f2, paritySign_signY, ← (hp.map fun P => (keyCoef Ps P).val • P).sum_eq] at hS
  change _ = _ + _ • aggPoint Ps at hS
  have hfin : (e * (signY c.Q * c.tacc) + (ss.map fun s => partialValue Ps c
      (UInt8.ofNat (ptY R % 2)) b e s.d s.k₁ s.k₂).sum) • G =
      signY R • (A + b • B) + ((schnorrChallenge (xonly R) c.Q m : ℕ) : Fn) • evenY c.Q := by
    have he' : ((schnorrChallenge (xonly R) c.Q m : ℕ) : Fn) = e := by
      rw [← he, musigChallenge, hR]
    have hE : evenY c.Q = signY c.Q • (c.gacc • aggPoint Ps + c.tacc • G) := by
      rw [← hc3, signY_smul]
    rw [add_smul, hS, he', hE]
    simp only [smul_add, mul_smul]
    abel
  have hlen : (xonly R ++ beBytes 32 (e * (signY c.Q * c.tacc) + (ss.map fun s =>
      partialValue Ps c (UInt8.ofNat (ptY R % 2)) b e s.d s.k₁ s.k₂).sum).val).length = 64 := by
    rw [List.length_append, xonly_length, beBytes_len]
  rw [(C23_verify_iff (evenY_ne_zero hc1) hlen m (by omega)).1, take32 hm, schnorr_iff hR0 hfin, val_smul]
  have hRdef : R = if A + b • B = 0 then G else A + b • B := by
    rw [← hR, finalNonce]
    rw [hb, val_smul]
  by_cases hz : A + b • B = 0
  · rw [hz, smul_zero]
    simp
  · rw [if_neg hz] at hRdef
    rw [← hRdef, signY_smul]
    simp only [ne_eq, hR0, not_false_eq_true, iff_true]
    exact ⟨evenY_ne_zero hR0, ptY_evenY R, ptX_evenY R⟩

/-- The whole signing session, where the keys `Ps` were aggregated in an order that need not be that of the
signers.  For any non-empty list of signers (keys may repeat) with nonzero keys and nonces, any sequence of
tweaks that BIP-327 accepts, and any message: aggregating the public nonces, processing the nonce, signing
by every signer, and aggregating the partial signatures all return 1; and `secp256k1_schnorrsig_verify`
accepts the result for the aggregate x-only key, unless the final nonce `R₁ + b R₂` is infinity. -/
theorem C31_flow_any_order {ss : List Signer} (h0 : ss ≠ []) (hs : ∀ s ∈ ss, s.d ≠ 0 ∧ s.k₁ ≠ 0 ∧ s.k₂ ≠ 0)
    {Ps : List Pt} (hp : Ps.Perm (ss.map Signer.key))
    {ts : List (Bool × Bytes)} {c : KeyaggCtx} (hQ : aggPoint Ps ≠ 0)
    (ht : tweakSeq Ps ts = some c) {m : Bytes} (hm : m.length = 32)
    (old₁ old₂ old₃ : Bytes) {old₄ : Bytes} (ho : old₄.length = 64) :
    ∃ aggnonce session sigs sig,
      musigNonceAgg (some old₁) (some ((ss.map Signer.nonce).map fun R => pubnonceObject R.1 R.2)) =
        ⟨1, 0, some aggnonce⟩ ∧
      musigNonceProcess (some old₂) (some aggnonce) (some m) (some (cacheObject Ps c)) =
        ⟨1, 0, some session⟩ ∧
      List.Forall₂ (fun (s : Signer) sig =>
        musigPartialSign (some old₃) (some s.secnonce) (some (keypairObject s.d))
          (some (cacheObject Ps c)) (some session) =
          ⟨1, 0, (some sig, some (List.replicate 132 0))⟩) ss sigs ∧
      musigPartialSigAgg (some old₄) (some session) (some sigs) = ⟨1, 0, some sig⟩ ∧
      ((schnorrsigVerify (some sig) (some m) 32 (some (keyObject (evenY c.Q)))).ret = 1 ↔
        ((ss.map Signer.nonce).map Prod.fst).sum +
          (nonceCoef ((ss.map Signer.nonce).map Prod.fst).sum ((ss.map Signer.nonce).map Prod.snd).sum
            c.Q m).val • ((ss.map Signer.nonce).map Prod.snd).sum ≠ 0) := by
  obtain ⟨hc1, hc2, -⟩ := C29_tweak_invariant hQ ht
  have hc : KeyaggOk c := ⟨hc1, hc2⟩
  have hne : ss.map Signer.nonce ≠ [] := by simpa using h0
  have hnz : ∀ R ∈ ss.map Signer.nonce, R.1 ≠ 0 ∧ R.2 ≠ 0 := by
    intro R hR
    obtain ⟨s, hsm, rfl⟩ := List.mem_map.1 hR
    obtain ⟨-, h1, h2⟩ := hs s hsm
    rw [Signer.nonce, val_smul, val_smul]
    exact ⟨smul_G_ne h1, smul_G_ne h2⟩
  have hagg := C35_nonce_agg hne hnz old₁
  generalize hA : ((ss.map Signer.nonce).map Prod.fst).sum = A at *
  generalize hB : ((ss.map Signer.nonce).map Prod.snd).sum = B at *
  have hproc := nonceProcess_eq (Ps := Ps) hc A B hm old₂
  generalize hR : finalNonce A B c.Q m = R
  generalize hb : nonceCoef A B c.Q m = b
  generalize he : musigChallenge A B c.Q m = e
  have hsess : sessionFor A B c m = sessionObject (UInt8.ofNat (ptY R % 2)) (xonly R) b e
      (e * (signY c.Q * c.tacc)) := by
    rw [sessionFor, hR, hb, he]
  rw [hsess] at hproc
  have hvs : ss.map (fun s => partialValue Ps c (UInt8.ofNat (ptY R % 2)) b e s.d s.k₁ s.k₂)
      ≠ [] := by simpa using h0
  refine ⟨_, _, (ss.map fun s => partialValue Ps c (UInt8.ofNat (ptY R % 2)) b e s.d s.k₁
    s.k₂).map partialSigObject, _, hagg, hproc, ?_, partialSigAgg_eq hvs _ (xonly_length R) _ _ _ ho, ?_⟩
  · rw [List.map_map, List.forall₂_map_right_iff, List.forall₂_same]
    intro s hsm
    obtain ⟨h1, h2, h3⟩ := hs s hsm
    exact C30_sign hc h1 (fun h => h2 h.1) _ (xonly_length R) b e _ old₃
  · exact agg_verify hp hQ ht hm hA hB hR hb he

/-- The same with the keys in the order of the signers. -/
theorem C31_flow {ss : List Signer} (h0 : ss ≠ []) (hs : ∀ s ∈ ss, s.d ≠ 0 ∧ s.k₁ ≠ 0 ∧ s.k₂ ≠ 0)
    {ts : List (Bool × Bytes)} {c : KeyaggCtx} (hQ : aggPoint (ss.map Signer.key) ≠ 0)
    (ht : tweakSeq (ss.map Signer.key) ts = some c) {m : Bytes} (hm : m.length = 32)
    (old₁ old₂ old₃ : Bytes) {old₄ : Bytes} (ho : old₄.length = 64) :
    ∃ aggnonce session sigs sig,
      musigNonceAgg (some old₁) (some ((ss.map Signer.nonce).map fun R => pubnonceObject R.1 R.2)) =
        ⟨1, 0, some aggnonce⟩ ∧
      musigNonceProcess (some old₂) (some aggnonce) (some m) (some (cacheObject (ss.map Signer.key) c)) =
        ⟨1, 0, some session⟩ ∧
      List.Forall₂ (fun (s : Signer) sig =>
        musigPartialSign (some old₃) (some s.secnonce) (some (keypairObject s.d))
          (some (cacheObject (ss.map Signer.key) c)) (some session) =
          ⟨1, 0, (some sig, some (List.replicate 132 0))⟩) ss sigs ∧
      musigPartialSigAgg (some old₄) (some session) (some sigs) = ⟨1, 0, some sig⟩ ∧
      ((schnorrsigVerify (some sig) (some m) 32 (some (keyObject (evenY c.Q)))).ret = 1 ↔
        ((ss.map Signer.nonce).map Prod.fst).sum +
          (nonceCoef ((ss.map Signer.nonce).map Prod.fst).sum ((ss.map Signer.nonce).map Prod.snd).sum
            c.Q m).val • ((ss.map Signer.nonce).map Prod.snd).sum ≠ 0) :=
  C31_flow_any_order h0 hs (List.Perm.refl _) hQ ht hm old₁ old₂ old₃ ho

/-- Three signers with keys 1, -1, 1, and nonces 2, 3 each. -/
noncomputable def exampleSigners : List Signer := [⟨1, 2, 3⟩, ⟨-1, 2, 3⟩, ⟨1, 2, 3⟩]

theorem exampleSigners_keys : exampleSigners.map Signer.key = [G, -G, G] := by
  simp only [exampleSigners, List.map_cons, List.map_nil, Signer.key, val_smul, neg_smul, one_smul]

example : exampleSigners ≠ [] ∧ (∀ s ∈ exampleSigners, s.d ≠ 0 ∧ s.k₁ ≠ 0 ∧ s.k₂ ≠ 0) ∧
    aggPoint (exampleSigners.map Signer.key) ≠ 0 ∧
    ∃ c, tweakSeq (exampleSigners.map Signer.key) [] = some c := by
  refine ⟨by simp [exampleSigners], ?_, ?_, _, rfl⟩
  · have h1 : (1 : Fn) ≠ 0 := by decide +kernel
    have h2 : (2 : Fn) ≠ 0 := by decide +kernel
    have h3 : (3 : Fn) ≠ 0 := by decide +kernel
    have h4 : (-1 : Fn) ≠ 0 := by decide +kernel
    intro s hs
    simp only [exampleSigners, List.mem_cons, List.not_mem_nil, or_false] at hs
    rcases hs with rfl | rfl | rfl
    · exact ⟨h1, h2, h3⟩
    · exact ⟨h4, h2, h3⟩
    · exact ⟨h1, h2, h3⟩
  · rw [exampleSigners_keys]
    exact aggPoint_example

end Secp
