import Verif.Proof.Parse
import Verif.Proof.Context

/-! # The key functions in terms of points -/

namespace Secp
open WeierstrassCurve Model FeOps Spec

theorem take32 {b : Bytes} (h : b.length = 32) : b.take 32 = b :=
  List.take_of_length_le (by omega)

/-- `secp256k1_ec_pubkey_create` on a live context. -/
theorem pubkeyCreate_valid {ctx : Ctx} (hctx : LiveCtx ctx) (old : Bytes) {seckey : Bytes}
    (h0 : 0 < beNat (seckey.take 32)) (hn : beNat (seckey.take 32) < n) :
    ecPubkeyCreate ctx (some old) (some seckey) =
      ⟨1, 0, some (keyObject (((beNat (seckey.take 32) : ℕ) : Fn) • G))⟩ := by
  have hg := hctx.ok
  obtain ⟨h1, h2, h3, h4⟩ := createHelper_rep hg seckey
  have hok : (scSetB32Seckey seckey).2 = true := by
    rw [scSetB32Seckey_iff]; exact ⟨h0, hn⟩
  rw [hok] at h3
  have e := h4 h3
  simp only [ecPubkeyCreate, ecmultGenIsBuilt, hg.built, h3]
  rw [pubkeySave_rep h1 (smul_G_ne h2), e]
  simp [memczero, cInt]

theorem pubkeyCreate_invalid {ctx : Ctx} (hctx : LiveCtx ctx) (old : Bytes) {seckey : Bytes}
    (h : beNat (seckey.take 32) = 0 ∨ n ≤ beNat (seckey.take 32)) :
    ecPubkeyCreate ctx (some old) (some seckey) = ⟨0, 0, some (zeros 64)⟩ := by
  have hg := hctx.ok
  obtain ⟨h1, h2, h3, h4⟩ := createHelper_rep hg seckey
  have hok : (scSetB32Seckey seckey).2 = false := by
    rw [Bool.eq_false_iff, Ne, scSetB32Seckey_iff]; omega
  rw [hok] at h3
  simp only [ecPubkeyCreate, ecmultGenIsBuilt, hg.built, h3]
  rw [pubkeySave_rep h1 (smul_G_ne h2)]
  simp [memczero, cInt, keyObject_length]

theorem cast_ne_zero {d : ℕ} (h0 : 0 < d) (hn : d < n) : (d : Fn) ≠ 0 := by
  intro h
  have := congrArg ZMod.val h
  rw [ZMod.val_natCast, Nat.mod_eq_of_lt hn, ZMod.val_zero] at this
  omega

theorem put_sc {b : Bytes} (h : b.length = 32) (a : Fn) : put b 0 (scGetB32 a) = beBytes 32 a.val :=
  put_zero_full (by rw [h, scGetB32_length])

/-- The tweak of `secp256k1_ec_seckey_tweak_add` and its relatives. -/
theorem scSetB32_zero_iff {b : Bytes} (h : beNat (b.take 32) < n) :
    (scSetB32 b).1 = 0 ↔ beNat (b.take 32) = 0 := by
  rw [← ZMod.val_eq_zero, (scSetB32_ok h).2]

theorem tweakAdd_rep {a : Ge Fp} {P : Pt} (ha : GeRep 7 a P) (t : Fn) :
    ((eckeyPubkeyTweakAdd a t).2 = true ↔ P + t • G ≠ 0) ∧
    (P + t • G ≠ 0 → GeRep 7 (eckeyPubkeyTweakAdd a t).1 (P + t • G)) := by
  have h := ecmult_rep (gejSetGe_rep ha) 1 (some t)
  rw [show ((some t).getD 0 : Fn) = t from rfl, one_smul] at h
  unfold eckeyPubkeyTweakAdd
  simp only
  cases hi : (ecmult (gejSetGe a) 1 (some t)).infinity
  · have hne : P + t • G ≠ 0 := fun e => by
      rw [← h.inf_iff, hi] at e; cases e
    simp only [Bool.false_eq_true, if_false, true_iff]
    exact ⟨hne, fun _ => geSetGej_rep h⟩
  · have h0 := h.inf_iff.1 hi
    simp [h0]

theorem tweakMul_rep {a : Ge Fp} {P : Pt} (ha : GeRep 7 a P) {t : Fn} (ht : t ≠ 0) :
    (eckeyPubkeyTweakMul a t).2 = true ∧ GeRep 7 (eckeyPubkeyTweakMul a t).1 (t • P) := by
  have h := ecmult_rep (gejSetGe_rep ha) t (some 0)
  rw [show ((some 0).getD 0 : Fn) = 0 from rfl, fn_zero_smul, add_zero] at h
  have hz : scIsZero t = false := by rw [Bool.eq_false_iff, Ne, scIsZero_iff]; exact ht
  unfold eckeyPubkeyTweakMul
  rw [hz]
  exact ⟨rfl, geSetGej_rep h⟩

theorem smul_ne_zero' {t : Fn} {P : Pt} (ht : t ≠ 0) (hP : P ≠ 0) : t • P ≠ 0 := fun e =>
  (smul_eq_zero_iff.1 e).elim ht hP

end Secp
