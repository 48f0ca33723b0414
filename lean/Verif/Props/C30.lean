import Verif.Proof.MusigSession
import Verif.Props.C29

/-!
# C30: MuSig partial signatures

Statements are for every key list, every context reached by tweaks (`KeyaggOk`, see
`C29_tweak_invariant`) and every session object.
-/

namespace Secp
open Model Spec

seal keyObject beBytes keysHash compressed

/-- `secp256k1_musig_partial_sign` returns 1 and the value of BIP-327, and zeroes the secret nonce. -/
theorem C30_sign {Ps : List Pt} {c : KeyaggCtx} (hc : KeyaggOk c) {d k1 k2 : Fn} (hd : d ≠ 0)
    (hk : ¬ (k1 = 0 ∧ k2 = 0)) (par : UInt8) {r : Bytes} (hr : r.length = 32) (b e s : Fn) (old : Bytes) :
    musigPartialSign (some old) (some (secnonceObject k1 k2 (d.val • G))) (some (keypairObject d))
      (some (cacheObject Ps c)) (some (sessionObject par r b e s)) =
      ⟨1, 0, (some (partialSigObject (partialValue Ps c par b e d k1 k2)), some (List.replicate 132 0))⟩ := by
  rw [val_smul]
  exact partialSign_eq hc hd hk par hr b e s old

/-- `secp256k1_musig_partial_sig_verify` accepts exactly the values `s'` with
`s' G = ±(R₁ + b R₂) + e a g gacc P`. -/
theorem C30_verify_iff {Ps : List Pt} {c : KeyaggCtx} (hc : KeyaggOk c) {P R₁ R₂ : Pt} (hP : P ≠ 0)
    (h1 : R₁ ≠ 0) (h2 : R₂ ≠ 0) (par : UInt8) {r : Bytes} (hr : r.length = 32) (b e s s' : Fn) :
    let o := musigPartialSigVerify (some (partialSigObject s')) (some (pubnonceObject R₁ R₂))
      (some (keyObject P)) (some (cacheObject Ps c)) (some (sessionObject par r b e s))
    (o.ret = 1 ↔ s'.val • G = (paritySign par).val • (R₁ + b.val • R₂) +
      (e * keyCoef Ps P * (signY c.Q * c.gacc)).val • P) ∧ (o.ret = 1 ∨ o.ret = 0) ∧ o.illegal = 0 := by
  obtain ⟨v, e1, e2⟩ := sigVerify_eq (Ps := Ps) hc hP h1 h2 par hr b e s s'
  simp only
  rw [e1, val_smul, val_smul, val_smul, val_smul, ← e2]
  cases v
  · exact ⟨⟨fun h => absurd h (by decide), fun h => absurd h (by decide)⟩, Or.inr rfl, rfl⟩
  · exact ⟨⟨fun _ => rfl, fun _ => rfl⟩, Or.inl rfl, rfl⟩

example := C30_verify_iff (Ps := [G, -G, G]) (c := keyaggInit [G, -G, G]) ⟨aggPoint_example, Or.inl rfl⟩ G_ne_zero G_ne_zero G_ne_zero 1
  (xonly_length G) 5 7 9 11

/-- What `secp256k1_musig_partial_sign` returns is accepted by `secp256k1_musig_partial_sig_verify` with
the public nonce and public key of the signer. -/
theorem C30_sign_verify {Ps : List Pt} {c : KeyaggCtx} (hc : KeyaggOk c) {d k1 k2 : Fn} (hd : d ≠ 0)
    (h1 : k1 ≠ 0) (h2 : k2 ≠ 0) (par : UInt8) {r : Bytes} (hr : r.length = 32) (b e s : Fn) (old : Bytes) :
    ∃ sig, musigPartialSign (some old) (some (secnonceObject k1 k2 (d.val • G))) (some (keypairObject d))
      (some (cacheObject Ps c)) (some (sessionObject par r b e s)) =
        ⟨1, 0, (some sig, some (List.replicate 132 0))⟩ ∧
      musigPartialSigVerify (some sig) (some (pubnonceObject (k1.val • G) (k2.val • G)))
        (some (keyObject (d.val • G))) (some (cacheObject Ps c)) (some (sessionObject par r b e s)) =
        ⟨1, 0, ()⟩ := by
  refine ⟨_, C30_sign hc hd (fun h => h1 h.1) par hr b e s old, ?_⟩
  rw [val_smul, val_smul, val_smul]
  obtain ⟨v, e1, e2⟩ := sigVerify_eq (Ps := Ps) hc (smul_G_ne hd) (smul_G_ne h1) (smul_G_ne h2) par hr b e s
    (partialValue Ps c par b e d k1 k2)
  rw [e1, e2.2]
  · rfl
  · rw [partialValue, val_smul, ← mul_smul, ← add_smul, ← mul_smul, ← mul_smul, ← add_smul]

/-- A keypair whose public key is not the one the secret nonce was made for is refused: one illegal
callback, no signature, and the secret nonce is zeroed all the same. -/
theorem C30_sign_wrong_key {k1 k2 : Fn} (hk : ¬ (k1 = 0 ∧ k2 = 0)) {P : Pt} (hP : P ≠ 0) {d : Fn} (hd : d ≠ 0)
    (hne : d.val • G ≠ P) (old cache session : Bytes) :
    musigPartialSign (some old) (some (secnonceObject k1 k2 P)) (some (keypairObject d)) (some cache)
      (some session) = ⟨0, 1, (some old, some (List.replicate 132 0))⟩ := by
  obtain ⟨own, hl2, hown⟩ := secnonceLoad_obj hk hP
  obtain ⟨kp, hl3, hkp⟩ := keypairLoad_obj hd
  have hx : (FeOps.equal own.x kp.x && FeOps.equal own.y kp.y) = false := by
    rw [Bool.eq_false_iff, Ne, Bool.and_eq_true, equal_iff, equal_iff]
    rintro ⟨e1, e2⟩
    apply hne
    rw [val_smul]
    refine pt_ext ?_ ?_
    · rw [← geRep_x hkp (smul_G_ne hd), ← geRep_x hown hP, e1]
    · rw [← geRep_y hkp (smul_G_ne hd), ← geRep_y hown hP, e2]
  unfold musigPartialSign
  simp only
  rw [hl2]
  simp only
  unfold partialSignWith
  simp only
  rw [hl3]
  simp only
  rw [hx]
  rfl

/-- The keys G, -G, G of `aggPoint_example`, the key 1, the nonces 2 and 3. -/
example : KeyaggOk (keyaggInit [G, -G, G]) ∧ (1 : Fn) ≠ 0 ∧ (2 : Fn) ≠ 0 ∧ (3 : Fn) ≠ 0 ∧
    (xonly G).length = 32 ∧ (2 : Fn).val • G ≠ G := by
  refine ⟨⟨aggPoint_example, Or.inl rfl⟩, by decide +kernel, by decide +kernel, by decide +kernel,
    xonly_length G, ?_⟩
  intro h
  have h2 : (2 : Fn).val • G = 2 • G := by
    rw [show (2 : Fn).val = 2 by decide +kernel]
  rw [h2, two_nsmul] at h
  exact G_ne_zero (by simpa using h)

end Secp
