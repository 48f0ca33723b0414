import Verif.Proof.EllswiftInv
import Verif.Proof.Extrakeys
import Verif.Proof.Schnorr
import Verif.Proof.DerSer

/-! # The search for an ElligatorSwift encoding -/

namespace Secp
open WeierstrassCurve Model Spec FeOps

theorem ellDecodes_unique {ell : Bytes} {P Q : Pt} (hP : EllDecodes ell P) (hQ : EllDecodes ell Q) :
    P = Q :=
  pt_ext_parity (hP.2.1.trans hQ.2.1.symm) (hP.2.2.trans hQ.2.2.symm)

/-- The decoder on every string. -/
theorem decode_spec (old ell : Bytes) :
    ∃ P, EllDecodes ell P ∧ ellswiftDecode (some old) (some ell) = ⟨1, 0, some (keyObject P)⟩ := by
  obtain ⟨P, h1, h2, h3, h4⟩ := swiftecVar_rep (ellU ell) (ellT ell)
  refine ⟨P, ⟨h1, h2, h3⟩, ?_⟩
  have : ellswiftDecode (some old) (some ell) =
    ⟨1, 0, some (pubkeySave (swiftecVar (ellU ell) (ellT ell)))⟩ := rfl
  rw [this, pubkeySave_rep h4 h1]

theorem prng_length {hasher : Hash.Sha} {m : Bytes} (hm : Hash.Absorbed hasher m) (cnt : UInt32) :
    (ellswiftPrng hasher cnt).length = 32 := by
  rw [ellswiftPrng, (Hash.finalize_spec (Hash.write_absorbed hm _)).1, Hash.sha_length]

theorem loop_spec {x : Fp} {hasher : Hash.Sha} {m : Bytes} (hm : Hash.Absorbed hasher m) (fuel : ℕ) :
    ∀ bh left cnt r, xelligatorswiftLoop x hasher fuel bh left cnt = some r →
      r.1.length = 32 ∧ ∃ c, xswiftecInvVar x (feSetB32Mod r.1) c = some r.2 := by
  induction fuel with
  | zero => intro bh left cnt r h; cases h
  | succ k ih =>
    intro bh left cnt r h
    rw [xelligatorswiftLoop] at h
    split at h
    · rename_i t ht
      have := (Option.some.inj h).symm
      subst this
      exact ⟨prng_length hm _, _, ht⟩
    · exact ih _ _ _ _ h

/-- Whatever the search returns decodes to the point. -/
theorem elligatorswift_spec {P : Pt} (hP : P ≠ 0) {a : Ge Fp} (ha : GeRep 7 a P) {fuel : ℕ}
    {hasher : Hash.Sha} {m : Bytes} (hm : Hash.Absorbed hasher m) {r : Bytes × Fp}
    (h : elligatorswiftVar fuel a hasher = some r) :
    r.1.length = 32 ∧ (feSetB32Mod r.1 ≠ 0 →
      ptX P = (xswiftec (feSetB32Mod r.1) r.2).val ∧ ptY P % 2 = r.2.val % 2) := by
  obtain ⟨hn, rfl⟩ := ha.elim (geRep_inf ha hP)
  unfold elligatorswiftVar at h
  split at h
  · cases h
  rename_i r' hr'
  obtain ⟨h1, c, h2⟩ := loop_spec hm fuel _ _ _ _ hr'
  have h := (Option.some.inj h).symm
  subst h
  refine ⟨h1, fun hu => ?_⟩
  dsimp only
  obtain ⟨t0, -, e⟩ := xswiftecInvVar_spec ⟨a.y, nonsingular_eq hn⟩ hu h2
  rw [ptX_some, ptY_some]
  have en : FeOps.normalize r'.2 = r'.2 := rfl
  rw [en]
  by_cases ho : feIsOdd r'.2 = feIsOdd a.y
  · rw [if_neg (by simp [ho])]
    refine ⟨by rw [e], ?_⟩
    have := feIsOdd_iff r'.2
    rw [ho, feIsOdd_iff] at this
    omega
  · rw [if_pos (by simpa using ho)]
    have ene : FeOps.normalize (negate r'.2 1) = -r'.2 := rfl
    rw [ene, xswiftec_neg, e]
    refine ⟨rfl, ?_⟩
    rw [neg_val_odd t0]
    have i1 := feIsOdd_iff r'.2
    have i2 := feIsOdd_iff a.y
    rcases Bool.eq_false_or_eq_true (feIsOdd r'.2) with b1 | b1 <;>
      rcases Bool.eq_false_or_eq_true (feIsOdd a.y) with b2 | b2 <;> simp_all

theorem ellswiftPut_eq {ell : Bytes} (hl : ell.length = 64) {r : Bytes × Fp} (h : r.1.length = 32) :
    ellswiftPut ell r = r.1 ++ beBytes 32 r.2.val := by
  unfold ellswiftPut
  have e1 : put ell 0 r.1 = r.1 ++ ell.drop 32 := by simp [put, h]
  rw [e1, put_at h, feGetB32, List.drop_eq_nil_of_le
    (by rw [Hash.beBytes_length, List.length_drop]; omega), List.append_nil]

theorem ellU_append {a b : Bytes} (h : a.length = 32) : ellU (a ++ b) = feSetB32Mod a := by
  unfold ellU feSetB32Mod
  rw [List.take_append_of_le_length (by omega)]

theorem ellT_append {a : Bytes} (h : a.length = 32) (t : Fp) : ellT (a ++ beBytes 32 t.val) = t := by
  unfold ellT
  rw [List.drop_left' h, List.take_of_length_le (by rw [Hash.beBytes_length]), beNat_beBytes,
    Nat.mod_eq_of_lt (fp_lt t), ZMod.natCast_zmod_val]

theorem ellDecodes_of {P : Pt} (hP : P ≠ 0) {r : Bytes × Fp} (h : r.1.length = 32)
    (hx : ptX P = (xswiftec (feSetB32Mod r.1) r.2).val) (hy : ptY P % 2 = r.2.val % 2) :
    EllDecodes (r.1 ++ beBytes 32 r.2.val) P := by
  refine ⟨hP, ?_, ?_⟩
  · rw [ellU_append h, ellT_append h, hx]
  · rw [ellT_append h, hy]

theorem encodeMid_ok :
    Hash.toList (Hash.fastCompress Hash.h0 (Hash.fastSha
      [115, 101, 99, 112, 50, 53, 54, 107, 49, 95, 101, 108, 108, 115, 119, 105, 102, 116, 95, 101, 110, 99, 111, 100, 101]
      ++ Hash.fastSha
      [115, 101, 99, 112, 50, 53, 54, 107, 49, 95, 101, 108, 108, 115, 119, 105, 102, 116, 95, 101, 110, 99, 111, 100, 101])) =
      ellswiftEncodeMid := by decide +kernel

theorem createMid_ok :
    Hash.toList (Hash.fastCompress Hash.h0 (Hash.fastSha
      [115, 101, 99, 112, 50, 53, 54, 107, 49, 95, 101, 108, 108, 115, 119, 105, 102, 116, 95, 99, 114, 101, 97, 116, 101]
      ++ Hash.fastSha
      [115, 101, 99, 112, 50, 53, 54, 107, 49, 95, 101, 108, 108, 115, 119, 105, 102, 116, 95, 99, 114, 101, 97, 116, 101])) =
      ellswiftCreateMid := by decide +kernel

theorem bip324Mid_ok :
    Hash.toList (Hash.fastCompress Hash.h0 (Hash.fastSha bip324Tag ++ Hash.fastSha bip324Tag)) =
      ellswiftBip324Mid := by decide +kernel

theorem createHasher_absorbed (seckey : Bytes) (aux : Option Bytes) :
    ∃ m, Hash.Absorbed (ellswiftCreateHasher seckey aux) m := by
  have h := Hash.write_absorbed (Hash.write_absorbed
    (midstate_absorbed _ Hash.uninit_buf createMid_ok) (seckey.take 32)) (zeros 32)
  cases aux with
  | none => exact ⟨_, h⟩
  | some aux => exact ⟨_, Hash.write_absorbed h _⟩

end Secp
