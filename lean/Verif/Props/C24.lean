import Verif.Props.C23
import Verif.Props.C28

/-! # C24: Schnorr signatures produced verify -/

namespace Secp
open Model Spec

theorem sign_core {gen : GenCtx} (hg : GenCtxOk gen) {d : Fn} (hd : d ≠ 0) (msg : Bytes)
    (nf : NonceHardened) (ndata : Option Bytes) :
    let nc := nf msg (beBytes 32 (evenKey d).val) (xonly (d.val • G)) (some nonceTag) ndata
    let k := ((beNat (nc.2.take 32) : ℕ) : Fn)
    (nc.1 ≠ 0 ∧ k ≠ 0 → schnorrsigSignCore gen msg (keypairObject d) nf ndata =
      (true, xonly (k.val • G) ++ beBytes 32 (evenKey k +
        ((schnorrChallenge (xonly (k.val • G)) (evenY (d.val • G)) msg : ℕ) : Fn) * evenKey d).val)) ∧
    (¬ (nc.1 ≠ 0 ∧ k ≠ 0) → schnorrsigSignCore gen msg (keypairObject d) nf ndata = (false, zeros 64)) := by
  intro nc k
  obtain ⟨a, hl, ha⟩ := keypairLoad_obj hd
  have hP := smul_G_ne hd
  have hsk : (if feIsOdd a.y then -d else d) = evenKey d := by
    unfold evenKey
    rw [val_smul]
    by_cases h : ptY (d • G) % 2 = 1
    · rw [if_pos h, if_pos ((feIsOdd_iff _).2 (by rw [geRep_y ha hP]; exact h))]
    · rw [if_neg h, if_neg (fun e => h (by rw [← geRep_y ha hP]; exact (feIsOdd_iff _).1 e))]
  have hx : feGetB32 a.x = xonly (d.val • G) := by rw [feGetB32_rep ha hP, val_smul]
  have hx' : xonly (d.val • G) = xonly (evenY (d.val • G)) := (xonly_evenY _).symm
  have halgo : bip340Algo = nonceTag := rfl
  have hk : (scSetB32 nc.2).1 = k := rfl
  have key : schnorrsigSignCore gen msg (keypairObject d) nf ndata =
      (decide (nc.1 ≠ 0) && !scIsZero k,
       memczero (feGetB32 (geSetGej (ecmultGen gen (scCmov k 1 (!(decide (nc.1 ≠ 0) && !scIsZero k))))).x ++
        scGetB32 (schnorrsigChallenge (feGetB32 (geSetGej (ecmultGen gen
          (scCmov k 1 (!(decide (nc.1 ≠ 0) && !scIsZero k))))).x) msg (xonly (d.val • G)) * evenKey d +
          (if feIsOdd (geSetGej (ecmultGen gen
          (scCmov k 1 (!(decide (nc.1 ≠ 0) && !scIsZero k))))).y then
            -(scCmov k 1 (!(decide (nc.1 ≠ 0) && !scIsZero k))) else
            (scCmov k 1 (!(decide (nc.1 ≠ 0) && !scIsZero k))))))
        (!(decide (nc.1 ≠ 0) && !scIsZero k))) := by
    unfold schnorrsigSignCore
    simp only
    rw [hl]
    simp only
    rw [hsk, hx, halgo, Bool.true_and]
    rfl
  rw [key]
  refine ⟨fun h => ?_, fun h => ?_⟩
  · have hz : (decide (nc.1 ≠ 0) && !scIsZero k) = true := by
      rw [Bool.and_eq_true, decide_eq_true_eq, Bool.not_eq_true', Bool.eq_false_iff,
        ne_eq (scIsZero k), scIsZero_iff]
      exact h
    rw [hz, Bool.not_true]
    have hcm : scCmov k 1 false = k := rfl
    rw [hcm]
    have hR := geSetGej_rep (ecmultGen_rep hg k)
    have hR0 := smul_G_ne h.2
    have hkk : (if feIsOdd (geSetGej (ecmultGen gen k)).y then -k else k) = evenKey k := by
      unfold evenKey
      rw [val_smul]
      by_cases h : ptY (k • G) % 2 = 1
      · rw [if_pos h, if_pos ((feIsOdd_iff _).2 (by rw [geRep_y hR hR0]; exact h))]
      · rw [if_neg h, if_neg (fun e => h (by rw [← geRep_y hR hR0]; exact (feIsOdd_iff _).1 e))]
    rw [hkk, feGetB32_rep hR hR0, hx', challenge_eq (by rw [xonly_length]), take32 (xonly_length _),
      val_smul k, add_comm (evenKey k)]
    rfl
  · have hz : (decide (nc.1 ≠ 0) && !scIsZero k) = false := by
      rw [Bool.eq_false_iff, Ne, Bool.and_eq_true, decide_eq_true_eq, Bool.not_eq_true',
        Bool.eq_false_iff, ne_eq (scIsZero k), scIsZero_iff]
      exact h
    rw [hz, Bool.not_false, memczero, if_pos rfl, List.length_append, scGetB32_length]
    rw [show ∀ x : Fp, (feGetB32 x).length = 32 from fun x => Hash.beBytes_length _ _]

/-- The signature equation: with `R = k' • G` (even y) and `s = k' + e d'`, BIP-340 accepts. -/
theorem schnorr_equation {d k : Fn} (hk : k ≠ 0) (m : Bytes) :
    SchnorrValid (evenY (d.val • G)) m (xonly (k.val • G) ++ beBytes 32 (evenKey k +
        ((schnorrChallenge (xonly (k.val • G)) (evenY (d.val • G)) m : ℕ) : Fn) * evenKey d).val) := by
  have hk0 : k.val • G ≠ 0 := by rw [val_smul]; exact smul_G_ne hk
  unfold SchnorrValid
  simp only
  rw [List.take_left' (xonly_length _), List.drop_left' (xonly_length _), beNat_xonly, beNat_beBytes,
    Nat.mod_eq_of_lt (fn_lt _)]
  generalize schnorrChallenge (xonly (k.val • G)) (evenY (d.val • G)) m = e
  rw [val_smul (_ + _)]
  have hR : (evenKey k + ((e : ℕ) : Fn) * evenKey d) • G - e • evenY (d.val • G) = evenY (k.val • G) := by
    rw [add_smul, mul_smul, evenKey_smul, evenKey_smul, natCast_smul, add_sub_cancel_right]
  rw [hR]
  exact ⟨ptX_lt _, ZMod.val_lt _, evenY_ne_zero hk0, ptY_evenY _, ptX_evenY _⟩

theorem signInternal_obj {ctx : Ctx} (hctx : LiveCtx ctx) {sig : Bytes} (hs : sig.length = 64)
    {msg : Option Bytes} {msglen : ℕ} (hm : msg ≠ none ∨ msglen = 0) {d : Fn} (hd : d ≠ 0)
    (nf : Option NonceHardened) (ndata : Option Bytes) :
    let m := msgBytes msg msglen
    let nc := (nf.getD nonceFunctionBip340) m (beBytes 32 (evenKey d).val) (xonly (d.val • G))
      (some nonceTag) ndata
    let k := ((beNat (nc.2.take 32) : ℕ) : Fn)
    (nc.1 ≠ 0 ∧ k ≠ 0 → schnorrsigSignInternal ctx (some sig) msg msglen (some (keypairObject d)) nf
      ndata = ⟨1, 0, some (xonly (k.val • G) ++ beBytes 32 (evenKey k +
        ((schnorrChallenge (xonly (k.val • G)) (evenY (d.val • G)) m : ℕ) : Fn) * evenKey d).val)⟩) ∧
    (¬ (nc.1 ≠ 0 ∧ k ≠ 0) → schnorrsigSignInternal ctx (some sig) msg msglen
      (some (keypairObject d)) nf ndata = ⟨0, 0, some (List.replicate 64 0)⟩) := by
  intro m nc k
  obtain ⟨a, hl, ha⟩ := keypairLoad_obj hd
  have hg := hctx.ok
  have hc : ¬ (msg = none ∧ msglen ≠ 0) := by
    rintro ⟨a, b⟩; exact hm.elim (fun h => h a) b
  obtain ⟨c1, c2⟩ := sign_core hg hd m (nf.getD nonceFunctionBip340) ndata
  have hu : schnorrsigSignInternal ctx (some sig) msg msglen (some (keypairObject d)) nf ndata =
      ⟨cInt (schnorrsigSignCore ctx.gen m (keypairObject d) (nf.getD nonceFunctionBip340) ndata).1, 0,
        some (put sig 0 (schnorrsigSignCore ctx.gen m (keypairObject d)
          (nf.getD nonceFunctionBip340) ndata).2)⟩ := by
    unfold schnorrsigSignInternal
    simp only [ecmultGenIsBuilt, hg.built, Bool.not_true, Bool.false_eq_true, if_false]
    rw [if_neg hc, hl]
    rfl
  rw [hu]
  refine ⟨fun h => ?_, fun h => ?_⟩
  · rw [c1 h, put_zero_full (by
      rw [hs, List.length_append, xonly_length, Hash.beBytes_length])]
    rfl
  · rw [c2 h, put_zero_full (by rw [hs]; simp [zeros])]
    rfl

/-- If signing with any nonce function and any data returns 1, then verification of the same message
under the x-only public key of the keypair returns 1.  The keypair is any that the user can hold
(`KeypairMade`), the message buffer has at least `msglen` bytes or is NULL with `msglen = 0`. -/
theorem C24_sign_internal_verify {ctx : Ctx} (hctx : LiveCtx ctx) {old : Bytes} (ho : old.length = 64)
    {msg : Option Bytes} {msglen : ℕ} (hm : msglen ≤ (msg.getD []).length) {kp : Bytes}
    (hk : KeypairMade kp) {nf : Option NonceHardened} {ndata : Option Bytes} {sig : Bytes} {ill : ℕ}
    (h : schnorrsigSignInternal ctx (some old) msg msglen (some kp) nf ndata = ⟨1, ill, some sig⟩)
    (o1 : Bytes) :
    ∃ xo, (keypairXonlyPub (some o1) none (some kp)).val.1 = some xo ∧
      schnorrsigVerify (some sig) msg msglen (some xo) = ⟨1, 0, ()⟩ := by
  obtain ⟨d, hd, e⟩ := C28_made hk
  have hP : evenY (d.val • G) ≠ 0 := evenY_ne_zero (by rw [val_smul]; exact smul_G_ne hd)
  refine ⟨keyObject (evenY (d.val • G)), by rw [e, keypairXonlyPub_obj hd], ?_⟩
  have hmm : msg ≠ none ∨ msglen = 0 := by
    cases msg with
    | none => right; simpa using hm
    | some m => left; simp
  rw [e] at h
  obtain ⟨c1, c2⟩ := signInternal_obj hctx ho hmm hd nf ndata
  by_cases hc : ((nf.getD nonceFunctionBip340) (msgBytes msg msglen) (beBytes 32 (evenKey d).val)
      (xonly (d.val • G)) (some nonceTag) ndata).1 ≠ 0 ∧
      ((beNat (((nf.getD nonceFunctionBip340) (msgBytes msg msglen) (beBytes 32 (evenKey d).val)
      (xonly (d.val • G)) (some nonceTag) ndata).2.take 32) : ℕ) : Fn) ≠ 0
  · rw [c1 hc] at h
    injection h with _ _ es
    have hv := schnorr_equation (d := d) hc.2 (msgBytes msg msglen)
    rw [Option.some.inj es] at hv
    have hsl : sig.length = 64 := by
      rw [← Option.some.inj es, List.length_append, xonly_length, Hash.beBytes_length]
    have hres : ∃ o, schnorrsigVerify (some sig) msg msglen (some (keyObject (evenY (d.val • G)))) = o ∧
        o.ret = 1 ∧ o.illegal = 0 := by
      refine ⟨_, rfl, ?_⟩
      cases msg with
      | none =>
        have h0 : msglen = 0 := by simpa using hm
        subst h0
        have := C23_verify_null_message hP hsl
        exact ⟨this.1.2 hv, this.2.2⟩
      | some m =>
        have := C23_verify_iff hP hsl m hm
        exact ⟨this.1.2 hv, this.2.2⟩
    obtain ⟨⟨r, i, u⟩, e1, e2, e3⟩ := hres
    rw [e1]
    simp only at e2 e3
    rw [e2, e3]
  · rw [c2 hc] at h
    injection h with e
    exact absurd e (by decide)

/-- `secp256k1_schnorrsig_sign32` (and its alias `secp256k1_schnorrsig_sign`). -/
theorem C24_sign32_verify {ctx : Ctx} (hctx : LiveCtx ctx) {old : Bytes} (ho : old.length = 64)
    {msg : Bytes} (hm : msg.length = 32) {kp : Bytes} (hk : KeypairMade kp) {aux : Option Bytes}
    {sig : Bytes} {ill : ℕ}
    (h : schnorrsigSign32 ctx (some old) (some msg) (some kp) aux = ⟨1, ill, some sig⟩ ∨
      schnorrsigSign ctx (some old) (some msg) (some kp) aux = ⟨1, ill, some sig⟩) (o1 : Bytes) :
    ∃ xo, (keypairXonlyPub (some o1) none (some kp)).val.1 = some xo ∧
      schnorrsigVerify (some sig) (some msg) 32 (some xo) = ⟨1, 0, ()⟩ :=
  C24_sign_internal_verify hctx ho (by rw [Option.getD_some, hm]) hk (h.elim id id) o1

/-- `secp256k1_schnorrsig_sign_custom` with any extra parameters. -/
theorem C24_sign_custom_verify {ctx : Ctx} (hctx : LiveCtx ctx) {old : Bytes} (ho : old.length = 64)
    {msg : Option Bytes} {msglen : ℕ} (hm : msglen ≤ (msg.getD []).length) {kp : Bytes}
    (hk : KeypairMade kp) {extra : Option SchnorrExtra} {sig : Bytes} {ill : ℕ}
    (h : schnorrsigSignCustom ctx (some old) msg msglen (some kp) extra = ⟨1, ill, some sig⟩)
    (o1 : Bytes) :
    ∃ xo, (keypairXonlyPub (some o1) none (some kp)).val.1 = some xo ∧
      schnorrsigVerify (some sig) msg msglen (some xo) = ⟨1, 0, ()⟩ := by
  cases extra with
  | none => exact C24_sign_internal_verify hctx ho hm hk h o1
  | some ex =>
    unfold schnorrsigSignCustom at h
    simp only at h
    by_cases hc : memcmpVar ex.magic schnorrMagic 4 ≠ 0
    · rw [if_pos hc] at h
      injection h with e
      exact absurd e (by decide)
    · rw [if_neg hc] at h
      exact C24_sign_internal_verify hctx ho hm hk h o1

/-- Signing does succeed: with a nonce function that returns a nonzero value below `n`. -/
theorem C24_sign_succeeds {ctx : Ctx} (hctx : LiveCtx ctx) {old : Bytes} (ho : old.length = 64)
    (msg : Bytes) {d : Fn} (hd : d ≠ 0) (ndata : Option Bytes) (k : Bytes) (hl : k.length = 32)
    (h1 : 1 ≤ beNat k) (hn : beNat k < n) :
    ∃ sig, schnorrsigSignCustom ctx (some old) (some msg) msg.length (some (keypairObject d))
      (some ⟨[0xda, 0x6f, 0xb3, 0x8c], some (fun _ _ _ _ _ => (1, k)), ndata⟩) = ⟨1, 0, some sig⟩ := by
  obtain ⟨c1, -⟩ := signInternal_obj hctx ho (msg := some msg) (msglen := msg.length) (Or.inl (by simp)) hd
    (some fun _ _ _ _ _ => (1, k)) ndata
  have hm : ¬ memcmpVar [0xda, 0x6f, 0xb3, 0x8c] schnorrMagic 4 ≠ 0 := by decide
  unfold schnorrsigSignCustom
  simp only
  rw [if_neg hm]
  refine ⟨_, c1 ⟨one_ne_zero, ?_⟩⟩
  simp only [Option.getD_some]
  rw [take32 hl]
  exact cast_ne_zero (by omega) hn

/-- An instance of the hypotheses. -/
example : ∃ ctx kp sig, LiveCtx ctx ∧ KeypairMade kp ∧ schnorrsigSignCustom ctx
    (some (List.replicate 64 0)) (some [1, 2, 3]) 3 (some kp)
      (some ⟨[0xda, 0x6f, 0xb3, 0x8c], some (fun _ _ _ _ _ => (1, beBytes 32 5)), none⟩) =
        ⟨1, 0, some sig⟩ := by
  obtain ⟨ctx, hc⟩ : ∃ ctx, LiveCtx ctx := ⟨_, LiveCtx.create (junk := contextStatic comb22)
    (flags := 1) (Or.inr (Or.inl rfl)) rfl⟩
  have hb : beNat (beBytes 32 5) = 5 := by decide +kernel
  obtain ⟨sig, h⟩ := C24_sign_succeeds hc (old := List.replicate 64 0) (by simp) [1, 2, 3] (d := 1)
    (by decide +kernel) none (beBytes 32 5) (Hash.beBytes_length _ _) (by rw [hb]; omega)
    (by rw [hb]; decide +kernel)
  exact ⟨_, _, sig, hc, keypairMade_one, h⟩

end Secp
