import Verif.Proof.Schnorr

/-! # C23: Schnorr verification decides exactly BIP-340 (`SchnorrValid` in `Verif/Spec/Schnorr.lean`) -/

namespace Secp
open Model Spec

/-- `secp256k1_schnorrsig_verify` on a valid x-only key, any 64 bytes and any message read from a buffer
of at least `msglen` bytes: returns 1 exactly when BIP-340 accepts, else 0; no callback. -/
theorem C23_verify_iff {P : Pt} (hP : P ≠ 0) {sig : Bytes} (hs : sig.length = 64) (msg : Bytes)
    {msglen : ℕ} (hm : msglen ≤ msg.length) :
    let o := schnorrsigVerify (some sig) (some msg) msglen (some (keyObject P))
    (o.ret = 1 ↔ SchnorrValid P (msg.take msglen) sig) ∧ (o.ret = 1 ∨ o.ret = 0) ∧ o.illegal = 0 := by
  obtain ⟨h1, h2, -⟩ := pubkeyLoad_obj hP
  have hd : (sig.drop 32).length = 32 := by rw [List.length_drop, hs]
  unfold schnorrsigVerify SchnorrValid
  simp only [reduceCtorEq, false_and, if_false]
  by_cases hr : beNat (sig.take 32) < p
  · rw [feSetB32Limit_lt hr]
    simp only [Bool.not_true, Bool.false_eq_true, if_false]
    by_cases hn : beNat (sig.drop 32) < n
    · obtain ⟨k1, k2⟩ := scSetB32_ok (b := sig.drop 32) (by rw [take32 hd]; exact hn)
      rw [take32 hd] at k2
      rw [k1, h1]
      simp only [Bool.not_true, Bool.false_eq_true, if_false]
      have hb : msgBytes (some msg) msglen = msg.take msglen := rfl
      rw [hb, feGetB32_rep h2 hP, challenge_eq (by rw [hs]; omega)]
      have := verifyPoint_iff h2 ((beNat (sig.take 32) : ℕ) : Fp) (scSetB32 (sig.drop 32)).1
        ((schnorrChallenge (sig.take 32) P (msg.take msglen) : ℕ) : Fn)
      rw [natCast_smul, ← val_smul (scSetB32 (sig.drop 32)).1, k2, ZMod.val_natCast,
        Nat.mod_eq_of_lt hr] at this
      cases hv : schnorrsigVerifyPoint ((beNat (sig.take 32) : ℕ) : Fp) (scSetB32 (sig.drop 32)).1
        ((schnorrChallenge (sig.take 32) P (msg.take msglen) : ℕ) : Fn)
        (pubkeyLoad (keyObject P)).1
      · rw [hv] at this
        refine ⟨⟨fun h => absurd h (by decide), fun h => ?_⟩, Or.inr rfl, trivial⟩
        exact absurd (this.2 h.2.2) (by decide)
      · exact ⟨⟨fun _ => ⟨hr, hn, this.1 hv⟩, fun _ => rfl⟩, Or.inl rfl, trivial⟩
    · have : (scSetB32 (sig.drop 32)).2 = true := by
        rw [scSetB32_overflow, take32 hd]; omega
      rw [this]
      simp [hn]
  · rw [feSetB32Limit_ge hr]
    simp [hr]

/-- An empty message may be given by a NULL pointer, with the same result. -/
theorem C23_verify_null_message {P : Pt} (hP : P ≠ 0) {sig : Bytes} (hs : sig.length = 64) :
    let o := schnorrsigVerify (some sig) none 0 (some (keyObject P))
    (o.ret = 1 ↔ SchnorrValid P [] sig) ∧ (o.ret = 1 ∨ o.ret = 0) ∧ o.illegal = 0 := by
  have := C23_verify_iff hP hs [] (msglen := 0) (le_refl _)
  exact this

/-- A key object that holds no key (first coordinate zero) is never accepted. -/
theorem C23_verify_invalid_key {obj : Bytes} (ho : leNat (obj.take 32) = 0) (sig : Bytes)
    (msg : Option Bytes) (msglen : ℕ) :
    (schnorrsigVerify (some sig) msg msglen (some obj)).ret = 0 := by
  have hq : (pubkeyLoad obj).2 = false := pubkeyLoad_x_zero ho
  unfold schnorrsigVerify
  simp only [hq]
  split
  · rfl
  · split
    · rfl
    · split
      · rfl
      · rfl

/-- A signature on a three-byte message under the key `G` that is accepted, and one whose first half is not
below `p`, which is rejected. -/
example : (∃ sig : Bytes, sig.length = 64 ∧ SchnorrValid G [1, 2, 3] sig ∧
      schnorrsigVerify (some sig) (some [1, 2, 3]) 3 (some (keyObject G)) = ⟨1, 0, ()⟩) ∧
    (schnorrsigVerify (some (List.replicate 64 0xff)) (some [1, 2, 3]) 3 (some (keyObject G))).ret = 0 := by
  constructor
  · have hx : (xonly G).length = 32 := xonly_length _
    refine ⟨xonly G ++ beBytes 32 (1 + ((schnorrChallenge (xonly G) G [1, 2, 3] : ℕ) : Fn)).val, ?_, ?_⟩
    · rw [List.length_append, hx, Hash.beBytes_length]
    · have hv : SchnorrValid G [1, 2, 3]
          (xonly G ++ beBytes 32 (1 + ((schnorrChallenge (xonly G) G [1, 2, 3] : ℕ) : Fn)).val) := by
        unfold SchnorrValid
        simp only
        rw [List.take_left' hx, List.drop_left' hx, beNat_xonly, beNat_beBytes,
          Nat.mod_eq_of_lt (fn_lt _), val_smul, add_smul, one_smul, natCast_smul, add_sub_cancel_right]
        refine ⟨?_, ZMod.val_lt _, G_ne_zero, ?_, rfl⟩
        · rw [G, ptX_some]; exact ZMod.val_lt _
        · rw [G, ptY_some]; decide +kernel
      refine ⟨hv, ?_⟩
      have hs : (xonly G ++ beBytes 32 (1 + ((schnorrChallenge (xonly G) G [1, 2, 3] : ℕ) : Fn)).val).length = 64 := by
        rw [List.length_append, hx, Hash.beBytes_length]
      have h := C23_verify_iff G_ne_zero hs [1, 2, 3] (msglen := 3) (by simp)
      generalize schnorrsigVerify _ _ _ _ = o at h
      obtain ⟨r, i, u⟩ := o
      have h1 := h.1.2 hv
      have h2 := h.2.2
      simp only at h1 h2
      subst h1 h2
      rfl
  · have h := C23_verify_iff G_ne_zero (sig := List.replicate 64 0xff) (by simp) [1, 2, 3] (msglen := 3) (by simp)
    refine h.2.1.resolve_left fun h1 => ?_
    have := (h.1.1 h1).1
    revert this
    decide +kernel

end Secp
