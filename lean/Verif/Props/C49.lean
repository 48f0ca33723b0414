import Verif.Proof.EllswiftEnc

/-! # C49: ElligatorSwift encodings decode to the encoded key

The C functions search for an encoding with an unbounded loop.  The model takes a bound `fuel` on the
number of iterations and returns `none` when it runs out; the theorems hold for every bound, and by
`C49_encode_fuel` the result does not depend on it. -/

namespace Secp
open Model Spec FeOps

theorem loop_mono {x : Fp} {hasher : Hash.Sha} (fuel : ℕ) :
    ∀ k bh left cnt r, xelligatorswiftLoop x hasher fuel bh left cnt = some r →
      xelligatorswiftLoop x hasher (fuel + k) bh left cnt = some r := by
  induction fuel with
  | zero => intro k bh left cnt r h; cases h
  | succ f ih =>
    intro k bh left cnt r h
    rw [show f + 1 + k = (f + k) + 1 by omega]
    simp only [xelligatorswiftLoop] at h ⊢
    split at h
    · exact h
    · exact ih _ _ _ _ _ h

theorem elligatorswift_mono {a : Ge Fp} {hasher : Hash.Sha} {fuel : ℕ} (k : ℕ) {r : Bytes × Fp}
    (h : elligatorswiftVar fuel a hasher = some r) : elligatorswiftVar (fuel + k) a hasher = some r := by
  unfold elligatorswiftVar xelligatorswiftVar at h ⊢
  split at h
  · cases h
  · rename_i r' hr'
    rw [loop_mono _ k _ _ _ _ hr']
    exact h

theorem decode_of_decodes (old : Bytes) {e : Bytes} {P : Pt} (h : EllDecodes e P) :
    ellswiftDecode (some old) (some e) = ⟨1, 0, some (keyObject P)⟩ := by
  obtain ⟨Q, hQ, e'⟩ := decode_spec old e
  rw [e', ellDecodes_unique hQ h]

theorem ellput_spec {P : Pt} (hP : P ≠ 0) {a : Ge Fp} (ha : GeRep 7 a P) {fuel : ℕ} {ell : Bytes}
    (hl : ell.length = 64) {hasher : Hash.Sha} {m : Bytes} (hm : Hash.Absorbed hasher m)
    {r : Bytes × Fp} (h : elligatorswiftVar fuel a hasher = some r) :
    (ellswiftPut ell r).length = 64 ∧
      (ellU (ellswiftPut ell r) ≠ 0 → EllDecodes (ellswiftPut ell r) P) := by
  obtain ⟨h1, h2⟩ := elligatorswift_spec hP ha hm h
  rw [ellswiftPut_eq hl h1]
  refine ⟨by rw [List.length_append, h1, Hash.beBytes_length], fun hu => ?_⟩
  rw [ellU_append h1] at hu
  exact ellDecodes_of hP h1 (h2 hu).1 (h2 hu).2

/-- When the search for an encoding of a valid public key ends, the call returns 1 and writes 64 bytes;
if their first half is not a multiple of `p`, these decode to exactly that key.  All randomness. -/
theorem C49_encode {P : Pt} (hP : P ≠ 0) {ell : Bytes} (hl : ell.length = 64) (rnd : Bytes) {fuel : ℕ}
    {o : Out (Option Bytes)}
    (h : ellswiftEncode fuel (some ell) (some (keyObject P)) (some rnd) = some o) :
    ∃ e, o = ⟨1, 0, some e⟩ ∧ e.length = 64 ∧
      (ellU e ≠ 0 → ∀ old, ellswiftDecode (some old) (some e) = ⟨1, 0, some (keyObject P)⟩) := by
  obtain ⟨h1, h2, -⟩ := pubkeyLoad_obj hP
  simp only [ellswiftEncode, h1, if_true] at h
  split at h
  · cases h
  rename_i r hr
  obtain ⟨i1, i2⟩ := ellput_spec hP h2 hl (Hash.write_absorbed (Hash.write_absorbed
    (midstate_absorbed _ Hash.uninit_buf encodeMid_ok) _) _) hr
  exact ⟨_, (Option.some.inj h).symm, i1, fun hu old => decode_of_decodes old (i2 hu)⟩

/-- A case in which the search ends is at the end of this file. -/
example (o : Out (Option Bytes)) (h : ellswiftEncode 1 (some (zeros 64)) (some (keyObject G)) (some (zeros 32)) = some o) :
    ∃ e, o = ⟨1, 0, some e⟩ ∧ e.length = 64 := by
  obtain ⟨e, h1, h2, -⟩ := C49_encode G_ne_zero (by simp [zeros]) _ h
  exact ⟨e, h1, h2⟩

/-- The same for the encoding made from a secret key, in any live context and with or without auxiliary
randomness: it decodes to the public key of the secret key. -/
theorem C49_create {ctx : Ctx} (hctx : LiveCtx ctx) {seckey : Bytes} (hs : seckey.length = 32)
    (h1 : 1 ≤ beNat seckey) (hn : beNat seckey < n) {ell : Bytes} (hl : ell.length = 64)
    (aux : Option Bytes) {fuel : ℕ} {o : Out (Option Bytes)}
    (h : ellswiftCreate ctx fuel (some ell) (some seckey) aux = some o) :
    ∃ e, o = ⟨1, 0, some e⟩ ∧ e.length = 64 ∧
      (ellU e ≠ 0 → ∀ old, ellswiftDecode (some old) (some e) =
        ⟨1, 0, some (keyObject (beNat seckey • G))⟩) := by
  obtain ⟨c1, c2, c3, c4⟩ := createHelper_rep hctx.ok seckey
  have hb : ecmultGenIsBuilt ctx.gen = true := hctx.ok.built
  have hok : (ecPubkeyCreateHelper ctx.gen seckey).2.2 = true := by
    rw [c3, scSetB32Seckey_iff, take32 hs]; omega
  have hd := c4 hok
  rw [take32 hs] at hd
  simp only [ellswiftCreate, hb, hok, Bool.not_true, Bool.false_eq_true, if_false] at h
  split at h
  · cases h
  rename_i r hr
  obtain ⟨m, hm⟩ := createHasher_absorbed seckey aux
  have hz : (put ell 0 (zeros 64)).length = 64 := by rw [put_zero_full (by rw [hl]; rfl)]; rfl
  obtain ⟨i1, i2⟩ := ellput_spec (smul_G_ne c2) c1 hz hm hr
  rw [hd, natCast_smul] at i2
  refine ⟨_, (Option.some.inj h).symm, ?_, ?_⟩
  · simp only [memczero, Bool.false_eq_true, if_false]; exact i1
  · simp only [memczero, Bool.false_eq_true, if_false]
    exact fun hu old => decode_of_decodes old (i2 hu)

/-- A secret key that is zero or not below the group order: the call returns 0 and the output is all
zero. -/
theorem C49_create_invalid {ctx : Ctx} (hctx : LiveCtx ctx) {seckey : Bytes} (hs : seckey.length = 32)
    (hbad : beNat seckey = 0 ∨ n ≤ beNat seckey) {ell : Bytes} (hl : ell.length = 64)
    (aux : Option Bytes) {fuel : ℕ} {o : Out (Option Bytes)}
    (h : ellswiftCreate ctx fuel (some ell) (some seckey) aux = some o) :
    o = ⟨0, 0, some (List.replicate 64 0)⟩ := by
  obtain ⟨c1, c2, c3, c4⟩ := createHelper_rep hctx.ok seckey
  have hb : ecmultGenIsBuilt ctx.gen = true := hctx.ok.built
  have hok : (ecPubkeyCreateHelper ctx.gen seckey).2.2 = false := by
    rw [c3, ← Bool.not_eq_true, scSetB32Seckey_iff, take32 hs]; omega
  simp only [ellswiftCreate, hb, hok, Bool.not_true, Bool.false_eq_true, if_false] at h
  split at h
  · cases h
  rename_i r hr
  obtain ⟨m, hm⟩ := createHasher_absorbed seckey aux
  have hz : (put ell 0 (zeros 64)).length = 64 := by rw [put_zero_full (by rw [hl]; rfl)]; rfl
  obtain ⟨i1, i2⟩ := ellput_spec (smul_G_ne c2) c1 hz hm hr
  rw [← Option.some.inj h]
  simp only [memczero, Bool.not_false, if_true, i1]
  rfl

/-- An all-zero public key object: the illegal-argument callback, 0 and an all-zero output. -/
theorem C49_encode_invalid (fuel : ℕ) {ell : Bytes} (hl : ell.length = 64) (rnd : Bytes) :
    ellswiftEncode fuel (some ell) (some (List.replicate 64 0)) (some rnd) =
      some ⟨0, 1, some (List.replicate 64 0)⟩ := by
  have h : (pubkeyLoad (List.replicate 64 0)).2 = false := pubkeyLoad_zeros
  simp only [ellswiftEncode, h, Bool.false_eq_true, if_false]
  rw [put_zero_full (by rw [hl]; rfl)]
  rfl

/-- The bound on the number of iterations is harmless: with a larger one the result is the same. -/
theorem C49_encode_fuel {ell pubkey rnd : Option Bytes} {fuel : ℕ} {o : Out (Option Bytes)}
    (h : ellswiftEncode fuel ell pubkey rnd = some o) (k : ℕ) :
    ellswiftEncode (fuel + k) ell pubkey rnd = some o := by
  cases ell with
  | none => exact h
  | some ell =>
    cases pubkey with
    | none => exact h
    | some pk =>
      cases rnd with
      | none => exact h
      | some rnd =>
        simp only [ellswiftEncode] at h ⊢
        by_cases hp : (pubkeyLoad pk).2 = true
        · rw [if_pos hp] at h ⊢
          split at h
          · cases h
          · rename_i r hr; rw [elligatorswift_mono k hr]; exact h
        · rw [if_neg hp] at h ⊢; exact h

theorem C49_create_fuel {ctx : Ctx} {ell seckey aux : Option Bytes} {fuel : ℕ} {o : Out (Option Bytes)}
    (h : ellswiftCreate ctx fuel ell seckey aux = some o) (k : ℕ) :
    ellswiftCreate ctx (fuel + k) ell seckey aux = some o := by
  cases ell with
  | none => exact h
  | some ell =>
    simp only [ellswiftCreate] at h ⊢
    by_cases hb : (!ecmultGenIsBuilt ctx.gen) = true
    · rw [if_pos hb] at h ⊢; exact h
    · rw [if_neg hb] at h ⊢
      cases seckey with
      | none => exact h
      | some sk =>
        dsimp only at h ⊢
        split at h
        · cases h
        · rename_i r hr; rw [elligatorswift_mono k hr]; exact h

/-- The inverse map: whenever it returns `t` for an x coordinate of the curve, a nonzero `u` and any of
the eight branch numbers, the map sends `(u, t)` back to `x`, without replacing `u` or `t`. -/
theorem C49_inverse {x u t : Fp} {c : ℕ} (hx : OnCurve x) (hu : u ≠ 0)
    (h : xswiftecInvVar x u c = some t) : t ≠ 0 ∧ u ^ 3 + 7 + t ^ 2 ≠ 0 ∧ xswiftec u t = x :=
  xswiftecInvVar_spec hx hu h

/-- The condition on `u` cannot be dropped: the inverse map also answers for `u = 0`, which the decoder
replaces by 1, and then the answer is wrong.  (The C code has only a debug assertion there.  Reaching it
takes a SHA-256 output that is a multiple of `p`.) -/
theorem C49_inverse_u_zero :
    ∃ (x t : Fp) (c : ℕ), OnCurve x ∧ xswiftecInvVar x 0 c = some t ∧ xswiftec 0 t ≠ x := by
  refine ⟨1, 50963827496501355358210603252497135226159332537351223778668747140855667399507, 0,
    ⟨29896722852569046015560700294576055776214335159245303116488692907525646231534, by decide +kernel⟩,
    by decide +kernel, ?_⟩
  rw [← xswiftecVar_eq]
  decide +kernel

/-- The search ends after one iteration for the generator and zero randomness. -/
example : (ellswiftEncode 1 (some (zeros 64)) (some (keyObject G)) (some (zeros 32))).isSome = true := by
  have : keyObject G = (beBytes 32 gx).reverse ++ (beBytes 32 gy).reverse := by decide +kernel
  rw [this]
  decide +kernel

end Secp
