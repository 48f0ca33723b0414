import Verif.Props.C24

/-! # C25: Schnorr signing fails closed -/

namespace Secp
open Model Spec

/-- An object that is not a keypair: no public key, or a secret key out of range. -/
def InvalidKeypair (kp : Bytes) : Prop :=
  leNat ((kp.drop 32).take 32) = 0 ∨ beNat (kp.take 32) = 0 ∨ n ≤ beNat (kp.take 32)

theorem keypairLoad_invalid {kp : Bytes} (h : InvalidKeypair kp) :
    keypairLoad kp = (1, geConstG, false) := by
  unfold keypairLoad
  simp only
  have : ((pubkeyLoad (kp.drop 32)).2 && (keypairSeckeyLoad kp).2) = false := by
    rw [Bool.and_eq_false_iff]
    rcases h with h | h
    · exact Or.inl (pubkeyLoad_x_zero h)
    · right
      rw [keypairSeckeyLoad, Bool.eq_false_iff, Ne, scSetB32Seckey_iff]
      omega
  rw [this]
  rfl

/-- The 64 bytes are all zero whenever the return value is 0, for every keypair object, message and
nonce function. -/
theorem C25_zero_signature (gen : GenCtx) (msg kp : Bytes) (nf : NonceHardened) (ndata : Option Bytes)
    (h : (schnorrsigSignCore gen msg kp nf ndata).1 = false) :
    (schnorrsigSignCore gen msg kp nf ndata).2 = List.replicate 64 0 := by
  unfold schnorrsigSignCore at h ⊢
  simp only at h ⊢
  rw [h, Bool.not_false, memczero, if_pos rfl, List.length_append, scGetB32_length,
    show ∀ x : Fp, (feGetB32 x).length = 32 from fun x => Hash.beBytes_length _ _]
  rfl

/-- The all-zero keypair. -/
example (gen : GenCtx) (msg : Bytes) (nf : NonceHardened) :
    (schnorrsigSignCore gen msg (zeros 96) nf none).2 = List.replicate 64 0 := by
  refine C25_zero_signature gen msg _ nf none ?_
  unfold schnorrsigSignCore
  simp only
  rw [keypairLoad_invalid (kp := zeros 96) (Or.inl (by decide +kernel))]
  simp

/-- Invalid keypair object: returns 0, calls the illegal callback once, the signature is zero,
whatever the nonce function does. -/
theorem C25_invalid_keypair {ctx : Ctx} (hctx : LiveCtx ctx) {sig : Bytes} (hs : sig.length = 64)
    {msg : Option Bytes} {msglen : ℕ} (hm : msg ≠ none ∨ msglen = 0) {kp : Bytes}
    (hk : InvalidKeypair kp) (nf : Option NonceHardened) (ndata : Option Bytes) :
    schnorrsigSignInternal ctx (some sig) msg msglen (some kp) nf ndata =
      ⟨0, 1, some (List.replicate 64 0)⟩ := by
  have hg := hctx.ok
  have hc : ¬ (msg = none ∧ msglen ≠ 0) := by
    rintro ⟨a, b⟩; exact hm.elim (fun h => h a) b
  have hl := keypairLoad_invalid hk
  have hf : (schnorrsigSignCore ctx.gen (msgBytes msg msglen) kp (nf.getD nonceFunctionBip340) ndata).1 =
      false := by
    unfold schnorrsigSignCore
    simp only
    rw [hl]
    simp
  have hz := C25_zero_signature ctx.gen (msgBytes msg msglen) kp (nf.getD nonceFunctionBip340) ndata hf
  unfold schnorrsigSignInternal
  simp only [ecmultGenIsBuilt, hg.built, Bool.not_true, Bool.false_eq_true, if_false]
  rw [if_neg hc, hl, hf, hz, put_zero_full (by rw [hs]; simp)]
  rfl

/-- The key `n` with the generator. -/
example : ∃ ctx, schnorrsigSignInternal ctx (some (zeros 64)) (some [1, 2]) 2 (some (beBytes 32 n ++ keyObject G))
    none none = ⟨0, 1, some (List.replicate 64 0)⟩ := by
  have hctx := LiveCtx.create (junk := contextStatic comb22) (flags := 1) (Or.inr (Or.inl rfl)) rfl
  exact ⟨_, C25_invalid_keypair hctx (by simp [zeros]) (Or.inl (by simp)) (Or.inr (Or.inr (by
    rw [List.take_left' (Hash.beBytes_length _ _)]; decide +kernel))) _ _⟩

/-- The nonce function fails (returns 0) or gives a nonce that is 0 modulo `n`: returns 0 and the
signature is zero, no callback. -/
theorem C25_nonce_failure {ctx : Ctx} (hctx : LiveCtx ctx) {sig : Bytes} (hs : sig.length = 64)
    {msg : Option Bytes} {msglen : ℕ} (hm : msg ≠ none ∨ msglen = 0) {d : Fn} (hd : d ≠ 0)
    (nf : NonceHardened) (ndata : Option Bytes)
    (hf : ∀ m key pk algo data, (nf m key pk algo data).1 = 0 ∨
      beNat ((nf m key pk algo data).2.take 32) % n = 0) :
    schnorrsigSignInternal ctx (some sig) msg msglen (some (keypairObject d)) (some nf) ndata =
      ⟨0, 0, some (List.replicate 64 0)⟩ := by
  refine (signInternal_obj hctx hs hm hd (some nf) ndata).2 ?_
  rintro ⟨h1, h2⟩
  rcases hf _ _ _ _ _ with h | h
  · exact h1 h
  · exact h2 (by rw [← ZMod.val_eq_zero, ZMod.val_natCast]; exact h)

/-- A nonce function that reports failure, and one that gives the group order. -/
example : ∃ ctx, schnorrsigSignInternal ctx (some (zeros 64)) (some [1, 2]) 2 (some (keypairObject 5))
      (some fun _ _ _ _ _ => (0, zeros 32)) none = ⟨0, 0, some (List.replicate 64 0)⟩ ∧
    schnorrsigSignInternal ctx (some (zeros 64)) (some [1, 2]) 2 (some (keypairObject 5))
      (some fun _ _ _ _ _ => (1, beBytes 32 n)) none = ⟨0, 0, some (List.replicate 64 0)⟩ := by
  have hctx := LiveCtx.create (junk := contextStatic comb22) (flags := 1) (Or.inr (Or.inl rfl)) rfl
  exact ⟨_, C25_nonce_failure hctx (by simp [zeros]) (Or.inl (by simp)) (by decide +kernel) _ _
      (fun _ _ _ _ _ => Or.inl rfl),
    C25_nonce_failure hctx (by simp [zeros]) (Or.inl (by simp)) (by decide +kernel) _ _
      (fun _ _ _ _ _ => Or.inr (by decide +kernel))⟩

/-- Extra parameters with a wrong magic are an illegal argument; nothing is written. -/
theorem C25_wrong_magic (ctx : Ctx) (sig64 msg : Option Bytes) (msglen : ℕ) (kp : Option Bytes)
    (ex : SchnorrExtra) (hl : ex.magic.length = 4) (hm : ex.magic ≠ [0xda, 0x6f, 0xb3, 0x8c]) :
    schnorrsigSignCustom ctx sig64 msg msglen kp (some ex) = ⟨0, 1, sig64⟩ := by
  have : memcmpVar ex.magic schnorrMagic 4 ≠ 0 := fun h => hm ((memcmpVar_lt hl rfl).2.1.1 h)
  unfold schnorrsigSignCustom
  simp only
  rw [if_pos this]
  rfl

example (ctx : Ctx) := C25_wrong_magic ctx (some (zeros 64)) (some [1]) 1 none ⟨[0xda, 0x6f, 0xb3, 0x8d], none, none⟩
  rfl (by decide)

/-- With the right magic `sign_custom` passes the nonce function and its data on; without extra
parameters it uses the default nonce function and no data. -/
theorem C25_custom_eq (ctx : Ctx) (sig64 msg : Option Bytes) (msglen : ℕ) (kp : Option Bytes)
    (nf : Option NonceHardened) (ndata : Option Bytes) :
    schnorrsigSignCustom ctx sig64 msg msglen kp (some ⟨[0xda, 0x6f, 0xb3, 0x8c], nf, ndata⟩) =
      schnorrsigSignInternal ctx sig64 msg msglen kp nf ndata ∧
    schnorrsigSignCustom ctx sig64 msg msglen kp none =
      schnorrsigSignInternal ctx sig64 msg msglen kp none none := by
  have hm : ¬ memcmpVar [0xda, 0x6f, 0xb3, 0x8c] schnorrMagic 4 ≠ 0 := by decide
  refine ⟨?_, rfl⟩
  unfold schnorrsigSignCustom
  simp only
  rw [if_neg hm]

/-- NULL arguments are illegal and nothing is written: no signature buffer, no message though
`msglen > 0`, no keypair. -/
theorem C25_null_arguments {ctx : Ctx} (hctx : LiveCtx ctx) (sig : Bytes) (msg : Option Bytes)
    (msglen : ℕ) (kp : Option Bytes) (nf : Option NonceHardened) (ndata : Option Bytes) :
    schnorrsigSignInternal ctx none msg msglen kp nf ndata = ⟨0, 1, none⟩ ∧
    (msglen ≠ 0 → schnorrsigSignInternal ctx (some sig) none msglen kp nf ndata = ⟨0, 1, some sig⟩) ∧
    (schnorrsigSignInternal ctx (some sig) msg msglen none nf ndata = ⟨0, 1, some sig⟩) := by
  have hg := hctx.ok
  unfold schnorrsigSignInternal
  simp only [ecmultGenIsBuilt, hg.built, Bool.not_true, Bool.false_eq_true, if_false]
  refine ⟨rfl, fun h => ?_, ?_⟩
  · rw [if_pos ⟨trivial, h⟩]; rfl
  · split <;> rfl

/-- The all-zero keypair that failing calls leave behind is an instance. -/
example : InvalidKeypair (List.replicate 96 0) ∧
    InvalidKeypair (beBytes 32 n ++ keyObject G) ∧ ¬ InvalidKeypair (keypairObject 1) := by
  refine ⟨Or.inl (by decide +kernel), Or.inr (Or.inr ?_), ?_⟩
  · rw [List.take_left' (Hash.beBytes_length _ _)]; decide +kernel
  · rintro (h | h | h)
    · rw [keypairObject_drop, take_keyObject, leNat_ptX, ptX_eq_zero, val_smul] at h
      exact smul_G_ne (by decide +kernel) h
    · rw [keypairObject_take] at h; exact absurd h (by decide +kernel)
    · rw [keypairObject_take] at h; exact absurd h (by decide +kernel)

end Secp
