import Verif.Model.Extrakeys
import Verif.Spec.Schnorr
import Verif.Proof.KeyApi

/-! # X-only keys and keypairs -/

namespace Secp
open WeierstrassCurve Model Spec

theorem feGetB32_rep {a : Ge Fp} {P : Pt} (h : GeRep 7 a P) (hP : P ≠ 0) :
    feGetB32 a.x = xonly P := by
  rw [xonly, ← geRep_x h hP]; rfl

theorem xonly_length (P : Pt) : (xonly P).length = 32 := Hash.beBytes_length _ _

theorem beNat_xonly (P : Pt) : beNat (xonly P) = ptX P := by
  rw [xonly, beNat_beBytes, Nat.mod_eq_of_lt (lt_trans (ptX_lt P) p_lt_256)]

theorem xonly_evenY (P : Pt) : xonly (evenY P) = xonly P := by rw [xonly, xonly, ptX_evenY]

theorem xonly_neg (P : Pt) : xonly (-P) = xonly P := by rw [xonly, xonly, ptX_neg]

theorem xonly_inj {P Q : Pt} : xonly P = xonly Q ↔ P = Q ∨ P = -Q := by
  constructor
  · intro h
    refine eq_or_neg_of_ptX ?_
    rw [← beNat_xonly, h, beNat_xonly]
  · rintro (rfl | rfl)
    · rfl
    · exact xonly_neg Q

theorem geEvenY_rep {a : Ge Fp} {P : Pt} (h : GeRep 7 a P) (hP : P ≠ 0) :
    GeRep 7 (geEvenY a).1 (evenY P) ∧ (geEvenY a).2 = ((ptY P % 2 : ℕ) : Int) := by
  unfold geEvenY evenY
  by_cases ho : ptY P % 2 = 1
  · rw [if_pos ((feIsOdd_iff _).2 (by rw [geRep_y h hP]; exact ho)), if_pos ho, ho]
    exact ⟨geNeg_rep h, rfl⟩
  · rw [if_neg (fun e => ho (by rw [← geRep_y h hP]; exact (feIsOdd_iff _).1 e)), if_neg ho]
    exact ⟨h, by rw [show ptY P % 2 = 0 by omega]; rfl⟩

theorem pubkeyLoad_x_zero {b : Bytes} (h : leNat (b.take 32) = 0) : (pubkeyLoad b).2 = false := by
  simp [pubkeyLoad, h]

theorem scNeg_smul_evenY (d : Fn) :
    (if ptY (d • G) % 2 = 1 then -d else d) • G = evenY (d • G) := by
  unfold evenY
  split
  · rw [neg_smul]
  · rfl

theorem keypairObject_length (d : Fn) : (keypairObject d).length = 96 := by
  rw [keypairObject, List.length_append, keyObject_length, Hash.beBytes_length]

theorem keypairObject_take (d : Fn) : (keypairObject d).take 32 = beBytes 32 d.val := by
  rw [keypairObject, List.take_left' (Hash.beBytes_length _ _)]

theorem keypairObject_drop (d : Fn) : (keypairObject d).drop 32 = keyObject (d.val • G) := by
  rw [keypairObject, List.drop_left' (Hash.beBytes_length _ _)]

theorem keypairSave_rep {d : Fn} (hd : d ≠ 0) {a : Ge Fp} (h : GeRep 7 a (d • G)) :
    keypairSave d a = keypairObject d := by
  rw [keypairSave, pubkeySave_rep h (smul_G_ne hd), keypairObject, val_smul]; rfl

theorem keypairSeckeyLoad_obj {d : Fn} (hd : d ≠ 0) : keypairSeckeyLoad (keypairObject d) = (d, true) := by
  have hb : beNat ((keypairObject d).take 32) = d.val := by
    rw [keypairObject_take, beNat_beBytes, Nat.mod_eq_of_lt (fn_lt d)]
  have hok : (scSetB32Seckey (keypairObject d)).2 = true := by
    rw [scSetB32Seckey_iff, hb]
    exact ⟨Nat.pos_of_ne_zero fun h => hd ((ZMod.val_eq_zero d).1 h), ZMod.val_lt d⟩
  have hv := (scSetB32Seckey_val hok).1
  rw [hb, ZMod.natCast_zmod_val] at hv
  exact Prod.ext hv hok

theorem keypairLoad_obj {d : Fn} (hd : d ≠ 0) :
    ∃ a, keypairLoad (keypairObject d) = (d, a, true) ∧ GeRep 7 a (d • G) := by
  have hP := smul_G_ne hd
  obtain ⟨h1, h2, -⟩ := pubkeyLoad_obj hP
  refine ⟨(pubkeyLoad (keyObject (d • G))).1, ?_, h2⟩
  unfold keypairLoad
  simp only
  rw [keypairSeckeyLoad_obj hd, keypairObject_drop, val_smul, h1]
  rfl

theorem keypairLoadPub_obj {d : Fn} (hd : d ≠ 0) :
    ∃ a, keypairLoadPub (keypairObject d) = (a, true) ∧ GeRep 7 a (d • G) := by
  have hP := smul_G_ne hd
  obtain ⟨h1, h2, -⟩ := pubkeyLoad_obj hP
  refine ⟨(pubkeyLoad (keyObject (d • G))).1, ?_, h2⟩
  unfold keypairLoadPub
  simp only
  rw [keypairObject_drop, val_smul, h1]
  rfl

/-- `secp256k1_ec_pubkey_tweak_add_helper` on the curve -/
theorem tweakHelper_rep {a : Ge Fp} {P : Pt} (ha : GeRep 7 a P) {t : Bytes} (ht : t.length = 32) :
    ((ecPubkeyTweakAddHelper a t).2 = true ↔ beNat t < n ∧ P + beNat t • G ≠ 0) ∧
    ((ecPubkeyTweakAddHelper a t).2 = true → GeRep 7 (ecPubkeyTweakAddHelper a t).1 (P + beNat t • G)) := by
  have hte : (scSetB32 t).1 = ((beNat t : ℕ) : Fn) := by
    simp only [scSetB32]; rw [take32 ht]
  obtain ⟨k1, k2⟩ := tweakAdd_rep ha ((beNat t : ℕ) : Fn)
  have hg : ((beNat t : ℕ) : Fn) • G = beNat t • G := natCast_smul _ _
  rw [hg] at k1 k2
  by_cases hn : n ≤ beNat t
  · have hto : (scSetB32 t).2 = true := by rw [scSetB32_overflow, take32 ht]; exact hn
    simp only [ecPubkeyTweakAddHelper, hto, Bool.not_true, Bool.false_eq_true, if_false, false_iff,
      IsEmpty.forall_iff, and_true]
    omega
  · have hto : (scSetB32 t).2 = false := (scSetB32_ok (by rw [take32 ht]; omega)).1
    simp only [ecPubkeyTweakAddHelper, hto, hte, Bool.not_false, if_true]
    rw [k1]
    exact ⟨⟨fun h => ⟨by omega, h⟩, fun h => h.2⟩, k2⟩

/-- `secp256k1_ec_seckey_tweak_add_helper` -/
theorem secTweakHelper_eq (d : Fn) {t : Bytes} (ht : t.length = 32) :
    (ecSeckeyTweakAddHelper d t).1 = d + ((beNat t : ℕ) : Fn) ∧
    ((ecSeckeyTweakAddHelper d t).2 = true ↔ beNat t < n ∧ d + ((beNat t : ℕ) : Fn) ≠ 0) := by
  have hte : (scSetB32 t).1 = ((beNat t : ℕ) : Fn) := by
    simp only [scSetB32]; rw [take32 ht]
  simp only [ecSeckeyTweakAddHelper, eckeyPrivkeyTweakAdd, hte]
  refine ⟨trivial, ?_⟩
  rw [Bool.and_eq_true, Bool.not_eq_true', Bool.not_eq_true', Bool.eq_false_iff, Bool.eq_false_iff, Ne,
    Ne, scSetB32_overflow, scIsZero_iff, take32 ht, not_le]

end Secp
