import Verif.Props.C17

/-! # C18: additive tweaking of secret and public keys agrees -/

namespace Secp
open Model Spec

theorem natCast_smul_G (d : ℕ) : ((d : ℕ) : Fn) • G = d • G := by
  rw [← val_smul, ZMod.val_natCast]
  conv_rhs => rw [← Nat.div_add_mod d n, add_nsmul, mul_comm, mul_nsmul, n_smul]
  rw [zero_add]

theorem nsmul_G_eq_zero (d : ℕ) : d • G = 0 ↔ d % n = 0 := by
  rw [← natCast_smul_G, smul_eq_zero_iff, or_iff_left G_ne_zero, ← ZMod.val_eq_zero,
    ZMod.val_natCast]

/-- For a valid secret key `d` and a tweak `t`, `secp256k1_ec_seckey_tweak_add` succeeds exactly when
`t < n` and `d + t` is not 0 modulo `n`, and then leaves `d + t` modulo `n`. -/
theorem C18_seckey_tweak_add {seckey tweak : Bytes} (hl : seckey.length = 32)
    (ht : tweak.length = 32) (h1 : 1 ≤ beNat seckey) (hn : beNat seckey < n)
    (htn : beNat tweak < n) (hne : (beNat seckey + beNat tweak) % n ≠ 0) :
    ecSeckeyTweakAdd (some seckey) (some tweak) =
      ⟨1, 0, some (beBytes 32 ((beNat seckey + beNat tweak) % n))⟩ := by
  have hok : (scSetB32Seckey seckey).2 = true := by
    rw [scSetB32Seckey_iff, take32 hl]; exact ⟨h1, hn⟩
  obtain ⟨e, -⟩ := scSetB32Seckey_val hok
  rw [take32 hl] at e
  have hto : (scSetB32 tweak).2 = false := (scSetB32_ok (by rw [take32 ht]; exact htn)).1
  have hte : (scSetB32 tweak).1 = ((beNat tweak : ℕ) : Fn) := by
    simp only [scSetB32]; rw [take32 ht]
  have hv : ((beNat seckey : ℕ) : Fn) + ((beNat tweak : ℕ) : Fn) =
      ((beNat seckey + beNat tweak : ℕ) : Fn) := by push_cast; rfl
  have hz : scIsZero (((beNat seckey + beNat tweak : ℕ) : Fn)) = false := by
    rw [Bool.eq_false_iff, Ne, scIsZero_iff, ← ZMod.val_eq_zero, ZMod.val_natCast]; exact hne
  simp only [ecSeckeyTweakAdd, ecSeckeyTweakAddHelper, eckeyPrivkeyTweakAdd, hok, e, hto, hte, hv,
    hz, scCmov, cInt]
  rw [put_sc hl]
  simp only [Bool.not_false, Bool.and_self, if_true, Bool.not_true, Bool.false_eq_true, if_false]
  rw [ZMod.val_natCast]

/-- `5 + 7` -/
example := C18_seckey_tweak_add key5_len key7_len key5_pos key5_lt key7_lt (by decide +kernel)

/-- In every other case, including an invalid secret key, it returns 0 and zeroes the key. -/
theorem C18_seckey_tweak_add_fail {seckey tweak : Bytes} (hl : seckey.length = 32)
    (ht : tweak.length = 32)
    (h : beNat seckey = 0 ∨ n ≤ beNat seckey ∨ n ≤ beNat tweak ∨
      (beNat seckey + beNat tweak) % n = 0) :
    ecSeckeyTweakAdd (some seckey) (some tweak) = ⟨0, 0, some (List.replicate 32 0)⟩ := by
  have key : ((scSetB32Seckey seckey).2 && (ecSeckeyTweakAddHelper (scSetB32Seckey seckey).1 tweak).2)
      = false := by
    rw [Bool.and_eq_false_iff, or_iff_not_imp_left]
    intro hok
    rw [Bool.not_eq_false] at hok
    obtain ⟨e, -⟩ := scSetB32Seckey_val hok
    rw [scSetB32Seckey_iff, take32 hl] at hok
    rw [take32 hl] at e
    simp only [ecSeckeyTweakAddHelper, eckeyPrivkeyTweakAdd, e]
    rw [Bool.and_eq_false_iff, or_iff_not_imp_left]
    intro hto
    have hto : ¬ n ≤ beNat tweak := by
      rw [← take32 ht, ← scSetB32_overflow]; simpa using hto
    have hz : (beNat seckey + beNat tweak) % n = 0 := by omega
    have hte : (scSetB32 tweak).1 = ((beNat tweak : ℕ) : Fn) := by
      simp only [scSetB32]; rw [take32 ht]
    rw [hte, ← Nat.cast_add]
    simp only [Bool.not_eq_false']
    rw [scIsZero_iff, ← ZMod.val_eq_zero, ZMod.val_natCast]; exact hz
  simp only [ecSeckeyTweakAdd, key, cInt, scCmov]
  rw [put_sc hl]
  simp [beBytes_zero]

/-- `5 + (n - 5)` -/
example := C18_seckey_tweak_add_fail (tweak := beBytes 32 (n - 5)) key5_len (by decide +kernel)
  (Or.inr (Or.inr (Or.inr (by decide +kernel))))

/-- `secp256k1_ec_pubkey_tweak_add` on any public key `P`: succeeds exactly when `t < n` and
`P + t • G` is not infinity, and then leaves that point. -/
theorem C18_pubkey_tweak_add {P : Pt} (hP : P ≠ 0) {tweak : Bytes} (ht : tweak.length = 32)
    (htn : beNat tweak < n) (hne : P + beNat tweak • G ≠ 0) :
    ecPubkeyTweakAdd (some (keyObject P)) (some tweak) =
      ⟨1, 0, some (keyObject (P + beNat tweak • G))⟩ := by
  obtain ⟨h1, h2, -⟩ := pubkeyLoad_obj hP
  have hto : (scSetB32 tweak).2 = false := (scSetB32_ok (by rw [take32 ht]; exact htn)).1
  have hte : (scSetB32 tweak).1 = ((beNat tweak : ℕ) : Fn) := by
    simp only [scSetB32]; rw [take32 ht]
  obtain ⟨k1, k2⟩ := tweakAdd_rep h2 ((beNat tweak : ℕ) : Fn)
  rw [natCast_smul_G] at k1 k2
  simp only [ecPubkeyTweakAdd, ecPubkeyTweakAddHelper, h1, hto, hte, Bool.not_false, if_true,
    k1.2 hne]
  rw [pubkeySave_rep (k2 hne) hne]

/-- `G + 7·G` -/
example := C18_pubkey_tweak_add G_ne_zero key7_len key7_lt (by
  have e : G + beNat key7 • G = (8 : Fn) • G := by
    rw [key7_val, show (8 : Fn) = ((1 + 7 : ℕ) : Fn) by norm_num, Nat.cast_add, add_smul, Nat.cast_one, one_smul]
    congr 1
    exact (Nat.cast_smul_eq_nsmul Fn 7 G).symm
  rw [e]
  exact smul_G_ne (by decide +kernel))

/-- Otherwise it returns 0 and zeroes the key. -/
theorem C18_pubkey_tweak_add_fail {P : Pt} (hP : P ≠ 0) {tweak : Bytes} (ht : tweak.length = 32)
    (h : n ≤ beNat tweak ∨ P + beNat tweak • G = 0) :
    ecPubkeyTweakAdd (some (keyObject P)) (some tweak) = ⟨0, 0, some (List.replicate 64 0)⟩ := by
  obtain ⟨h1, h2, -⟩ := pubkeyLoad_obj hP
  have hte : (scSetB32 tweak).1 = ((beNat tweak : ℕ) : Fn) := by
    simp only [scSetB32]; rw [take32 ht]
  obtain ⟨k1, k2⟩ := tweakAdd_rep h2 ((beNat tweak : ℕ) : Fn)
  rw [natCast_smul_G] at k1 k2
  have key : (ecPubkeyTweakAddHelper (pubkeyLoad (keyObject P)).1 tweak).2 = false := by
    simp only [ecPubkeyTweakAddHelper, hte]
    cases hto : (scSetB32 tweak).2
    · have hto : ¬ n ≤ beNat tweak := by
        rw [← take32 ht, ← scSetB32_overflow, hto]; simp
      simp only [Bool.not_false, if_true]
      rw [Bool.eq_false_iff, Ne, k1, not_not]
      exact h.resolve_left hto
    · rfl
  simp only [ecPubkeyTweakAdd, h1, key, if_true, Bool.false_eq_true, if_false]
  rfl

example := C18_pubkey_tweak_add_fail G_ne_zero keyN_len (Or.inl keyN_val)

/-- Secret and public tweaking agree: tweaking the public key of `d` succeeds exactly when tweaking
`d` does, and gives the public key of the tweaked secret key. -/
theorem C18_tweak_add_agree {ctx : Ctx} (hctx : LiveCtx ctx) (old : Bytes) {seckey tweak : Bytes}
    (hl : seckey.length = 32) (ht : tweak.length = 32) (h1 : 1 ≤ beNat seckey)
    (hn : beNat seckey < n) :
    ∃ pk sk', (ecPubkeyCreate ctx (some old) (some seckey)).val = some pk ∧
      (ecSeckeyTweakAdd (some seckey) (some tweak)).val = some sk' ∧
      (ecPubkeyTweakAdd (some pk) (some tweak)).ret =
        (ecSeckeyTweakAdd (some seckey) (some tweak)).ret ∧
      (ecPubkeyTweakAdd (some pk) (some tweak)).val =
        (ecPubkeyCreate ctx (some old) (some sk')).val := by
  have hP : beNat seckey • G ≠ 0 := by
    rw [Ne, nsmul_G_eq_zero, Nat.mod_eq_of_lt hn]; omega
  by_cases hc : beNat tweak < n ∧ (beNat seckey + beNat tweak) % n ≠ 0
  · have hlt := Nat.mod_lt (beNat seckey + beNat tweak) n_pos
    have hb : beNat (beBytes 32 ((beNat seckey + beNat tweak) % n)) =
        (beNat seckey + beNat tweak) % n := by
      rw [beNat_beBytes, Nat.mod_eq_of_lt (lt_trans hlt n_lt_256)]
    refine ⟨_, _, by rw [C16_pubkey_create hctx old hl h1 hn],
      by rw [C18_seckey_tweak_add hl ht h1 hn hc.1 hc.2], ?_⟩
    rw [C18_seckey_tweak_add hl ht h1 hn hc.1 hc.2,
      C16_pubkey_create hctx old (Hash.beBytes_length _ _) (by rw [hb]; omega) (by rw [hb]; exact hlt),
      hb, C18_pubkey_tweak_add hP ht hc.1 (by
        rw [← add_nsmul, Ne, nsmul_G_eq_zero]; exact hc.2)]
    refine ⟨rfl, ?_⟩
    have : ((beNat seckey + beNat tweak) % n) • G = (beNat seckey + beNat tweak) • G := by
      rw [← ZMod.val_natCast, val_smul, natCast_smul_G]
    rw [this, add_nsmul]
  · have hc' : n ≤ beNat tweak ∨ (beNat seckey + beNat tweak) % n = 0 := by
      by_cases h : n ≤ beNat tweak
      · exact Or.inl h
      · right; by_contra h'; exact hc ⟨by omega, h'⟩
    have hf := C18_seckey_tweak_add_fail hl ht (Or.inr (Or.inr hc'))
    have hz : beNat (List.replicate 32 (0 : UInt8)) = 0 := by decide +kernel
    refine ⟨_, _, by rw [C16_pubkey_create hctx old hl h1 hn], by rw [hf], ?_⟩
    rw [hf, C18_pubkey_tweak_add_fail hP ht (by
      rcases hc' with h | h
      · exact Or.inl h
      · right; rw [← add_nsmul, nsmul_G_eq_zero]; exact h),
      C16_pubkey_create_invalid hctx old (by simp) (Or.inl hz)]
    exact ⟨rfl, rfl⟩

example : ∃ ctx pk, (ecPubkeyCreate ctx (some []) (some key5)).val = some pk ∧
    (ecPubkeyTweakAdd (some pk) (some key7)).ret = (ecSeckeyTweakAdd (some key5) (some key7)).ret := by
  obtain ⟨ctx, h⟩ := exists_live
  obtain ⟨pk, _, h1, _, h3, _⟩ := C18_tweak_add_agree h [] key5_len key7_len key5_pos key5_lt
  exact ⟨ctx, pk, h1, h3⟩

/-- The key n-1 with tweak 3 gives 2; with tweak 1 it fails. -/
example : (ecSeckeyTweakAdd (some (beBytes 32 (n - 1))) (some (beBytes 32 3))) =
      ⟨1, 0, some (beBytes 32 2)⟩ ∧
    (ecSeckeyTweakAdd (some (beBytes 32 (n - 1))) (some (beBytes 32 1))).ret = 0 := by
  decide +kernel

end Secp
