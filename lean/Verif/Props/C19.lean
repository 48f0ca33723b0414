import Verif.Props.C18

/-! # C19: multiplicative tweaking of secret and public keys agrees -/

namespace Secp
open Model Spec

theorem mul_mod_ne_zero {a b : ℕ} (ha : a % n ≠ 0) (hb : b % n ≠ 0) : a * b % n ≠ 0 := by
  intro h
  have h := Nat.dvd_of_mod_eq_zero h
  rcases (Nat.Prime.dvd_mul (Fact.out : n.Prime)).1 h with h | h
  · exact ha (Nat.mod_eq_zero_of_dvd h)
  · exact hb (Nat.mod_eq_zero_of_dvd h)

/-- For a valid secret key `d`, `secp256k1_ec_seckey_tweak_mul` succeeds exactly when the tweak `t` is
in `[1, n-1]`, and leaves `d * t` modulo `n`. -/
theorem C19_seckey_tweak_mul {seckey tweak : Bytes} (hl : seckey.length = 32)
    (ht : tweak.length = 32) (h1 : 1 ≤ beNat seckey) (hn : beNat seckey < n)
    (ht1 : 1 ≤ beNat tweak) (htn : beNat tweak < n) :
    ecSeckeyTweakMul (some seckey) (some tweak) =
      ⟨1, 0, some (beBytes 32 (beNat seckey * beNat tweak % n))⟩ := by
  have hok : (scSetB32Seckey seckey).2 = true := by
    rw [scSetB32Seckey_iff, take32 hl]; exact ⟨h1, hn⟩
  obtain ⟨e, -⟩ := scSetB32Seckey_val hok
  rw [take32 hl] at e
  have hto : (scSetB32 tweak).2 = false := (scSetB32_ok (by rw [take32 ht]; exact htn)).1
  have hte : (scSetB32 tweak).1 = ((beNat tweak : ℕ) : Fn) := by
    simp only [scSetB32]; rw [take32 ht]
  have hz : scIsZero (((beNat tweak : ℕ) : Fn)) = false := by
    rw [Bool.eq_false_iff, Ne, scIsZero_iff]; exact cast_ne_zero ht1 htn
  have hv : ((beNat seckey : ℕ) : Fn) * ((beNat tweak : ℕ) : Fn) =
      ((beNat seckey * beNat tweak : ℕ) : Fn) := by push_cast; rfl
  simp only [ecSeckeyTweakMul, eckeyPrivkeyTweakMul, hok, e, hto, hte, hv, hz, scCmov, cInt]
  rw [put_sc hl]
  simp only [Bool.not_false, Bool.and_self, if_true, Bool.not_true, Bool.false_eq_true, if_false]
  rw [ZMod.val_natCast]

/-- `5 · 7` -/
example := C19_seckey_tweak_mul key5_len key7_len key5_pos key5_lt key7_pos key7_lt

/-- In every other case, including an invalid secret key, it returns 0 and zeroes the key. -/
theorem C19_seckey_tweak_mul_fail {seckey tweak : Bytes} (hl : seckey.length = 32)
    (ht : tweak.length = 32)
    (h : beNat seckey = 0 ∨ n ≤ beNat seckey ∨ beNat tweak = 0 ∨ n ≤ beNat tweak) :
    ecSeckeyTweakMul (some seckey) (some tweak) = ⟨0, 0, some (List.replicate 32 0)⟩ := by
  have key : ((scSetB32Seckey seckey).2 && (!(scSetB32 tweak).2 &&
      (eckeyPrivkeyTweakMul (scSetB32Seckey seckey).1 (scSetB32 tweak).1).2)) = false := by
    rw [Bool.and_eq_false_iff, or_iff_not_imp_left]
    intro hok
    rw [Bool.not_eq_false, scSetB32Seckey_iff, take32 hl] at hok
    rw [Bool.and_eq_false_iff, or_iff_not_imp_left]
    intro hto
    have hto : ¬ n ≤ beNat tweak := by
      rw [← take32 ht, ← scSetB32_overflow]; simpa using hto
    have hz : beNat tweak = 0 := by omega
    simp only [eckeyPrivkeyTweakMul, Bool.not_eq_false']
    rw [scIsZero_iff, scSetB32_zero_iff (by rw [take32 ht]; omega), take32 ht]; exact hz
  simp only [ecSeckeyTweakMul, key, cInt, scCmov]
  rw [put_sc hl]
  simp [beBytes_zero]

example := C19_seckey_tweak_mul_fail (tweak := zeros 32) key5_len (by decide +kernel)
  (Or.inr (Or.inr (Or.inl (by decide +kernel))))

/-- `secp256k1_ec_pubkey_tweak_mul` on any public key `P` succeeds exactly when the tweak `t` is in
`[1, n-1]`, and leaves `t • P`. -/
theorem C19_pubkey_tweak_mul {P : Pt} (hP : P ≠ 0) {tweak : Bytes} (ht : tweak.length = 32)
    (ht1 : 1 ≤ beNat tweak) (htn : beNat tweak < n) :
    ecPubkeyTweakMul (some (keyObject P)) (some tweak) =
      ⟨1, 0, some (keyObject (beNat tweak • P))⟩ ∧ beNat tweak • P ≠ 0 := by
  obtain ⟨h1, h2, -⟩ := pubkeyLoad_obj hP
  have hto : (scSetB32 tweak).2 = false := (scSetB32_ok (by rw [take32 ht]; exact htn)).1
  have hte : (scSetB32 tweak).1 = ((beNat tweak : ℕ) : Fn) := by
    simp only [scSetB32]; rw [take32 ht]
  obtain ⟨k1, k2⟩ := tweakMul_rep h2 (cast_ne_zero ht1 htn)
  have hne := smul_ne_zero' (cast_ne_zero ht1 htn) hP
  rw [natCast_smul] at k2 hne
  simp only [ecPubkeyTweakMul, h1, hto, hte, Bool.not_false, if_true, k1]
  rw [pubkeySave_rep k2 hne]
  exact ⟨rfl, hne⟩

example := C19_pubkey_tweak_mul G_ne_zero key7_len key7_pos key7_lt

/-- Otherwise it returns 0 and zeroes the key. -/
theorem C19_pubkey_tweak_mul_fail {P : Pt} (hP : P ≠ 0) {tweak : Bytes} (ht : tweak.length = 32)
    (h : beNat tweak = 0 ∨ n ≤ beNat tweak) :
    ecPubkeyTweakMul (some (keyObject P)) (some tweak) = ⟨0, 0, some (List.replicate 64 0)⟩ := by
  obtain ⟨h1, h2, -⟩ := pubkeyLoad_obj hP
  cases hto : (scSetB32 tweak).2
  · have hto' : ¬ n ≤ beNat tweak := by
      rw [← take32 ht, ← scSetB32_overflow, hto]; simp
    have hz : scIsZero (scSetB32 tweak).1 = true := by
      rw [scIsZero_iff, scSetB32_zero_iff (by rw [take32 ht]; omega), take32 ht]; omega
    simp only [ecPubkeyTweakMul, eckeyPubkeyTweakMul, hto, h1, hz, Bool.not_false, if_true,
      Bool.false_eq_true, if_false]
    rfl
  · simp only [ecPubkeyTweakMul, hto, Bool.not_true, Bool.false_eq_true, if_false]
    rfl

example := C19_pubkey_tweak_mul_fail G_ne_zero keyN_len (Or.inr keyN_val)

/-- Secret and public tweaking agree, in success and in failure. -/
theorem C19_tweak_mul_agree {ctx : Ctx} (hctx : LiveCtx ctx) (old : Bytes) {seckey tweak : Bytes}
    (hl : seckey.length = 32) (ht : tweak.length = 32) (h1 : 1 ≤ beNat seckey)
    (hn : beNat seckey < n) :
    ∃ pk sk', (ecPubkeyCreate ctx (some old) (some seckey)).val = some pk ∧
      (ecSeckeyTweakMul (some seckey) (some tweak)).val = some sk' ∧
      (ecPubkeyTweakMul (some pk) (some tweak)).ret =
        (ecSeckeyTweakMul (some seckey) (some tweak)).ret ∧
      (ecPubkeyTweakMul (some pk) (some tweak)).val =
        (ecPubkeyCreate ctx (some old) (some sk')).val := by
  have hP : beNat seckey • G ≠ 0 := by
    rw [Ne, nsmul_G_eq_zero, Nat.mod_eq_of_lt hn]; omega
  by_cases hc : 1 ≤ beNat tweak ∧ beNat tweak < n
  · have hlt := Nat.mod_lt (beNat seckey * beNat tweak) n_pos
    have hb : beNat (beBytes 32 (beNat seckey * beNat tweak % n)) =
        beNat seckey * beNat tweak % n := by
      rw [beNat_beBytes, Nat.mod_eq_of_lt (lt_trans hlt n_lt_256)]
    have hnz : beNat seckey * beNat tweak % n ≠ 0 :=
      mul_mod_ne_zero (by rw [Nat.mod_eq_of_lt hn]; omega) (by rw [Nat.mod_eq_of_lt hc.2]; omega)
    refine ⟨_, _, by rw [C16_pubkey_create hctx old hl h1 hn],
      by rw [C19_seckey_tweak_mul hl ht h1 hn hc.1 hc.2], ?_⟩
    rw [C19_seckey_tweak_mul hl ht h1 hn hc.1 hc.2,
      C16_pubkey_create hctx old (Hash.beBytes_length _ _) (by rw [hb]; omega) (by rw [hb]; exact hlt),
      hb, (C19_pubkey_tweak_mul hP ht hc.1 hc.2).1]
    refine ⟨rfl, ?_⟩
    have : (beNat seckey * beNat tweak % n) • G = (beNat seckey * beNat tweak) • G := by
      rw [← ZMod.val_natCast, val_smul, natCast_smul_G]
    rw [this, ← mul_nsmul]
  · have hc' : beNat tweak = 0 ∨ n ≤ beNat tweak := by omega
    have hf := C19_seckey_tweak_mul_fail hl ht (Or.inr (Or.inr hc'))
    have hz : beNat (List.replicate 32 (0 : UInt8)) = 0 := by decide +kernel
    refine ⟨_, _, by rw [C16_pubkey_create hctx old hl h1 hn], by rw [hf], ?_⟩
    rw [hf, C19_pubkey_tweak_mul_fail hP ht hc',
      C16_pubkey_create_invalid hctx old (by simp) (Or.inl hz)]
    exact ⟨rfl, rfl⟩

example : ∃ ctx pk, (ecPubkeyCreate ctx (some []) (some key5)).val = some pk ∧
    (ecPubkeyTweakMul (some pk) (some key7)).ret = (ecSeckeyTweakMul (some key5) (some key7)).ret := by
  obtain ⟨ctx, h⟩ := exists_live
  obtain ⟨pk, _, h1, _, h3, _⟩ := C19_tweak_mul_agree h [] key5_len key7_len key5_pos key5_lt
  exact ⟨ctx, pk, h1, h3⟩

/-- The key n-1 with tweak 3 gives n-3; tweak n fails. -/
example : (ecSeckeyTweakMul (some (beBytes 32 (n - 1))) (some (beBytes 32 3))) =
      ⟨1, 0, some (beBytes 32 (n - 3))⟩ ∧
    (ecSeckeyTweakMul (some (beBytes 32 (n - 1))) (some (beBytes 32 n))).ret = 0 := by
  decide +kernel

end Secp
