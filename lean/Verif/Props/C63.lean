import Mathlib.Data.Fintype.Card
import Verif.Proof.EllswiftSearch
import Verif.Props.C49

/-! # C63: every ElligatorSwift encoding can be produced, and by exactly one case

The encoder draws pseudorandom pairs of a field element `u` and a case number below 8 until the inverse map
has an answer.  For its output to be uniform among all encodings of the key, no encoding may be missed and
none may be reached twice. -/

namespace Secp
open Model Spec FeOps

/-- For every pair `(u, t)` that decodes without replacement of `u` or `t`, exactly one of the eight cases
of the inverse map leads from the decoded x coordinate and `u` back to `t`. -/
theorem C63_exactly_one {u t : Fp} (hu : u ≠ 0) (ht : t ≠ 0) (hp : u ^ 3 + 7 + t ^ 2 ≠ 0) :
    ∃! c, c < 8 ∧ xswiftecInvVar (xswiftec u t) u c = some t := by
  obtain ⟨c, hc, h⟩ := inv_exists hu ht hp
  exact ⟨c, ⟨hc, h⟩, fun d hd => inv_inj (xswiftecFracVar_spec u t).2.2 hu hd.1 hc hd.2 h⟩

/-- For every x coordinate of the curve and every `u`, as many cases have an answer as there are values of
`t` that decode to it. -/
theorem C63_count {x u : Fp} (hx : OnCurve x) (hu : u ≠ 0) :
    Nat.card {c : ℕ // c < 8 ∧ (xswiftecInvVar x u c).isSome = true} =
      Nat.card {t : Fp // t ≠ 0 ∧ u ^ 3 + 7 + t ^ 2 ≠ 0 ∧ xswiftec u t = x} := by
  refine Nat.card_congr (Equiv.ofBijective
    (fun c => ⟨(xswiftecInvVar x u c.1).get c.2.2, xswiftecInvVar_spec hx hu (Option.some_get _).symm⟩) ⟨?_, ?_⟩)
  · rintro ⟨c, hc, hc'⟩ ⟨d, hd, hd'⟩ h
    have h : (xswiftecInvVar x u c).get hc' = (xswiftecInvVar x u d).get hd' := congrArg Subtype.val h
    have e1 : xswiftecInvVar x u c = some ((xswiftecInvVar x u c).get hc') := (Option.some_get _).symm
    have e2 : xswiftecInvVar x u d = some ((xswiftecInvVar x u c).get hc') := by
      rw [h]; exact (Option.some_get _).symm
    exact Subtype.ext (inv_inj hx hu hc hd e1 e2)
  · rintro ⟨t, ht, hp, rfl⟩
    obtain ⟨c, hc, h⟩ := inv_exists hu ht hp
    refine ⟨⟨c, hc, by rw [h]; rfl⟩, Subtype.ext ?_⟩
    simp only [h, Option.get_some]

/-- The inverse map is the function `XSwiftECInv` of BIP-324. -/
theorem C63_inverse_is_bip324 (x u : Fp) {c : ℕ} (hc : c < 8) :
    xswiftecInvVar x u c = xswiftecInv x u c := xswiftecInvVar_eq x u hc

/-- Encoding a valid public key: the output is the encoding found by the first iteration of the search that
finds one, with the draws seeded by the key and the caller's randomness. -/
theorem C63_encode {P : Pt} (hP : P ≠ 0) {ell : Bytes} (hl : ell.length = 64) {rnd : Bytes}
    (hr : rnd.length = 32) (fuel : ℕ) :
    ellswiftEncode fuel (some ell) (some (keyObject P)) (some rnd) =
      ((List.range fuel).findSome? (ellTry (ellEncodeSeed P rnd) (ptX P : Fp) (ptY P : Fp))).map
        fun e => ⟨1, 0, some e⟩ := by
  obtain ⟨h1, h2, -⟩ := pubkeyLoad_obj hP
  have hser : ((eckeyPubkeySerialize (pubkeyLoad (keyObject P)).1 (zeros 64) 0 true).1).take 64 =
      compressed P ++ List.replicate 31 0 := by
    rw [serialize_compressed h2 hP (by decide)]
    exact List.take_of_length_le (by rw [List.length_append, compressed_length]; decide)
  have hm := Hash.write_absorbed (Hash.write_absorbed
    (midstate_absorbed Hash.uninit Hash.uninit_buf encodeMid_ok) (compressed P ++ List.replicate 31 0)) rnd
  have he := search_eq hP h2 hm fuel hl
  have hseed : ellEncodeSeed P rnd =
      sha256 ellEncodeTag ++ sha256 ellEncodeTag ++ (compressed P ++ List.replicate 31 0) ++ rnd := by
    rw [ellEncodeSeed, List.append_assoc _ (compressed P)]
  rw [hseed, show ellEncodeTag = [115, 101, 99, 112, 50, 53, 54, 107, 49, 95, 101, 108, 108, 115, 119, 105,
    102, 116, 95, 101, 110, 99, 111, 100, 101] from rfl, ← he]
  simp only [ellswiftEncode, h1, if_true, hser, List.take_of_length_le hr.le]
  generalize elligatorswiftVar fuel _ _ = o
  cases o <;> rfl

/-- The same for the encoding made from a secret key: the draws are seeded by the secret key and the
optional auxiliary randomness, whatever the blinding of the context is. -/
theorem C63_create {ctx : Ctx} (hctx : LiveCtx ctx) {seckey : Bytes} (hs : seckey.length = 32)
    (h1 : 1 ≤ beNat seckey) (hn : beNat seckey < n) {ell : Bytes} (hl : ell.length = 64)
    {aux : Option Bytes} (ha : ∀ a, aux = some a → a.length = 32) (fuel : ℕ) :
    ellswiftCreate ctx fuel (some ell) (some seckey) aux =
      ((List.range fuel).findSome? (ellTry (ellCreateSeed seckey aux) (ptX (beNat seckey • G) : Fp)
        (ptY (beNat seckey • G) : Fp))).map fun e => ⟨1, 0, some e⟩ := by
  obtain ⟨c1, c2, c3, c4⟩ := createHelper_rep hctx.ok seckey
  have hb : ecmultGenIsBuilt ctx.gen = true := hctx.ok.built
  have hok : (ecPubkeyCreateHelper ctx.gen seckey).2.2 = true := by
    rw [c3, scSetB32Seckey_iff, take32 hs]; omega
  have hd := c4 hok
  rw [take32 hs] at hd
  have hz : (put ell 0 (zeros 64)).length = 64 := by rw [put_zero_full (by rw [hl]; rfl)]; rfl
  have hm : Hash.Absorbed (ellswiftCreateHasher seckey aux) (ellCreateSeed seckey aux) := by
    have h := Hash.write_absorbed (Hash.write_absorbed
      (midstate_absorbed Hash.uninit Hash.uninit_buf createMid_ok) (seckey.take 32)) (zeros 32)
    rw [take32 hs] at h
    unfold ellswiftCreateHasher ellCreateSeed
    dsimp only
    rw [take32 hs]
    cases aux with
    | none => rw [Option.getD_none, List.append_nil]; exact h
    | some a =>
      dsimp only
      rw [Option.getD_some, take32 (ha a rfl)]
      exact Hash.write_absorbed h a
  have he := search_eq (smul_G_ne c2) c1 hm fuel hz
  rw [hd, natCast_smul] at he
  rw [← he]
  simp only [ellswiftCreate, hb, hok, Bool.not_true, Bool.false_eq_true, if_false]
  have e : ({ (ecPubkeyCreateHelper ctx.gen seckey).2.1 with
      x := FeOps.normalize (ecPubkeyCreateHelper ctx.gen seckey).2.1.x,
      y := FeOps.normalize (ecPubkeyCreateHelper ctx.gen seckey).2.1.y } : Ge Fp) =
      (ecPubkeyCreateHelper ctx.gen seckey).2.1 := rfl
  rw [e]
  generalize elligatorswiftVar fuel _ _ = o
  cases o <;> rfl

/-- Non-vacuity: the pair `(1, 1)` decodes without replacement, so exactly one case leads back to it; and the
x coordinate of the generator is one of the curve. -/
example : ∃! c, c < 8 ∧ xswiftecInvVar (xswiftec 1 1) 1 c = some 1 :=
  C63_exactly_one one_ne_zero one_ne_zero (by decide +kernel)

example : OnCurve (gx : Fp) ∧ (2 : Fp) ≠ 0 := ⟨⟨(gy : Fp), by decide +kernel⟩, by decide +kernel⟩

/-- Non-vacuity: for the generator and zero randomness the first iteration finds an encoding, so the
right-hand side of `C63_encode` is not always `none`. -/
example : ∃ e, ellswiftEncode 1 (some (zeros 64)) (some (keyObject G)) (some (zeros 32)) = some ⟨1, 0, some e⟩ ∧
    ellTry (ellEncodeSeed G (zeros 32)) (ptX G : Fp) (ptY G : Fp) 0 = some e := by
  have h : (ellswiftEncode 1 (some (zeros 64)) (some (keyObject G)) (some (zeros 32))).isSome = true := by
    have : keyObject G = (beBytes 32 gx).reverse ++ (beBytes 32 gy).reverse := by decide +kernel
    rw [this]
    decide +kernel
  have h' := C63_encode G_ne_zero (ell := zeros 64) rfl (rnd := zeros 32) rfl 1
  rw [h'] at h ⊢
  rw [List.range_one, List.findSome?_singleton] at h ⊢
  generalize ellTry _ _ _ 0 = o at h ⊢
  cases o with
  | none => cases h
  | some e => exact ⟨e, rfl, rfl⟩

end Secp
