import Verif.Props.C16

/-! # C17: negation of secret and public keys agrees -/

namespace Secp
open Model Spec

/-- A valid secret key `d` becomes `n - d`. -/
theorem C17_seckey_negate {seckey : Bytes} (hl : seckey.length = 32) (h1 : 1 ≤ beNat seckey)
    (hn : beNat seckey < n) :
    ecSeckeyNegate (some seckey) = ⟨1, 0, some (beBytes 32 (n - beNat seckey))⟩ := by
  have hok : (scSetB32Seckey seckey).2 = true := by
    rw [scSetB32Seckey_iff, take32 hl]; exact ⟨h1, hn⟩
  obtain ⟨e, hne⟩ := scSetB32Seckey_val hok
  rw [take32 hl] at e
  have hv : (-((beNat seckey : ℕ) : Fn)).val = n - beNat seckey := by
    haveI : NeZero ((beNat seckey : ℕ) : Fn) := ⟨cast_ne_zero h1 hn⟩
    rw [ZMod.val_neg_of_ne_zero, ZMod.val_natCast, Nat.mod_eq_of_lt hn]
  simp only [ecSeckeyNegate, hok, e, scCmov, cInt]
  rw [put_sc hl]
  simp [hv]

example := C17_seckey_negate key5_len key5_pos key5_lt

/-- Any other 32 bytes: return 0 and a zeroed buffer. -/
theorem C17_seckey_negate_invalid {seckey : Bytes} (hl : seckey.length = 32)
    (h : beNat seckey = 0 ∨ n ≤ beNat seckey) :
    ecSeckeyNegate (some seckey) = ⟨0, 0, some (List.replicate 32 0)⟩ := by
  have hok : (scSetB32Seckey seckey).2 = false := by
    rw [Bool.eq_false_iff, Ne, scSetB32Seckey_iff, take32 hl]; omega
  simp only [ecSeckeyNegate, hok, scCmov, cInt]
  rw [put_sc hl]
  simp [beBytes_zero]

example := C17_seckey_negate_invalid keyN_len (Or.inr keyN_val)

/-- A public key becomes the opposite point. -/
theorem C17_pubkey_negate {P : Pt} (hP : P ≠ 0) :
    ecPubkeyNegate (some (keyObject P)) = ⟨1, 0, some (keyObject (-P))⟩ := by
  obtain ⟨h1, h2, -⟩ := pubkeyLoad_obj hP
  simp only [ecPubkeyNegate, h1]
  rw [pubkeySave_rep (geNeg_rep h2) (neg_ne_zero.2 hP)]
  simp

example := C17_pubkey_negate G_ne_zero

/-- An object that holds no key (first coordinate zero): one illegal callback, return 0, zeroed object. -/
theorem C17_pubkey_negate_invalid {obj : Bytes} (h : leNat (obj.take 32) = 0) :
    ecPubkeyNegate (some obj) = ⟨0, 1, some (List.replicate 64 0)⟩ := by
  have hq : (pubkeyLoad obj).2 = false := by simp [pubkeyLoad, h]
  simp only [ecPubkeyNegate, hq]
  rfl

example := C17_pubkey_negate_invalid (obj := zeros 64) (by decide +kernel)

/-- Negating the secret key negates its public key. -/
theorem C17_negate_agree {ctx : Ctx} (hctx : LiveCtx ctx) (old : Bytes) {seckey : Bytes}
    (hl : seckey.length = 32) (h1 : 1 ≤ beNat seckey) (hn : beNat seckey < n) :
    ∃ pk neg, (ecPubkeyCreate ctx (some old) (some seckey)).val = some pk ∧
      (ecSeckeyNegate (some seckey)).val = some neg ∧
      (ecPubkeyCreate ctx (some old) (some neg)).val = (ecPubkeyNegate (some pk)).val ∧
      (ecPubkeyCreate ctx (some old) (some neg)).ret = 1 := by
  have hlt : n - beNat seckey < n := by omega
  have hb : beNat (beBytes 32 (n - beNat seckey)) = n - beNat seckey := by
    rw [beNat_beBytes, Nat.mod_eq_of_lt (lt_trans hlt n_lt_256)]
  refine ⟨_, _, by rw [C16_pubkey_create hctx old hl h1 hn], by rw [C17_seckey_negate hl h1 hn], ?_⟩
  have hne : beNat seckey • G ≠ 0 := by
    rw [← Nat.mod_eq_of_lt hn, ← ZMod.val_natCast, val_smul]
    exact smul_G_ne (cast_ne_zero h1 hn)
  rw [C17_pubkey_negate hne, C16_pubkey_create hctx old (Hash.beBytes_length _ _)
    (by rw [hb]; omega) (by rw [hb]; exact hlt), hb]
  refine ⟨?_, rfl⟩
  have : (n - beNat seckey) • G = -(beNat seckey • G) := by
    rw [eq_neg_iff_add_eq_zero, ← add_nsmul, Nat.sub_add_cancel hn.le]
    exact n_smul_G
  rw [this]

example : ∃ ctx, ∃ pk neg, (ecPubkeyCreate ctx (some []) (some key5)).val = some pk ∧
    (ecSeckeyNegate (some key5)).val = some neg ∧
    (ecPubkeyCreate ctx (some []) (some neg)).val = (ecPubkeyNegate (some pk)).val := by
  obtain ⟨ctx, h⟩ := exists_live
  obtain ⟨pk, neg, h1, h2, h3, _⟩ := C17_negate_agree h [] key5_len key5_pos key5_lt
  exact ⟨ctx, pk, neg, h1, h2, h3⟩

/-- Negating twice gives the original, for secret and for public keys. -/
theorem C17_negate_involutive :
    (∀ seckey : Bytes, seckey.length = 32 → 1 ≤ beNat seckey → beNat seckey < n →
      ∃ neg, (ecSeckeyNegate (some seckey)).val = some neg ∧
        ecSeckeyNegate (some neg) = ⟨1, 0, some seckey⟩) ∧
    (∀ P : Pt, P ≠ 0 → ∃ neg, (ecPubkeyNegate (some (keyObject P))).val = some neg ∧
      ecPubkeyNegate (some neg) = ⟨1, 0, some (keyObject P)⟩) := by
  constructor
  · intro seckey hl h1 hn
    have hlt : n - beNat seckey < n := by omega
    have hb : beNat (beBytes 32 (n - beNat seckey)) = n - beNat seckey := by
      rw [beNat_beBytes, Nat.mod_eq_of_lt (lt_trans hlt n_lt_256)]
    refine ⟨_, by rw [C17_seckey_negate hl h1 hn], ?_⟩
    rw [C17_seckey_negate (Hash.beBytes_length _ _) (by rw [hb]; omega) (by rw [hb]; exact hlt), hb,
      Nat.sub_sub_self hn.le, beBytes_beNat' hl]
  · intro P hP
    refine ⟨_, by rw [C17_pubkey_negate hP], ?_⟩
    rw [C17_pubkey_negate (neg_ne_zero.2 hP), neg_neg]

/-- The secret key 2 and its public key. -/
example : (beBytes 32 2).length = 32 ∧ 1 ≤ beNat (beBytes 32 2) ∧ beNat (beBytes 32 2) < n ∧
    (ecSeckeyNegate (some (beBytes 32 2))).val = some (beBytes 32 (n - 2)) := by
  decide +kernel

end Secp
