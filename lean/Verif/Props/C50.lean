import Verif.Proof.EllswiftEnc
import Verif.Props.C43
import Verif.Proof.MusigKeyagg
import Verif.Props.C49

/-! # C50: ElligatorSwift key exchange agrees

The hash function is an arbitrary function of the old output buffer, the shared x coordinate and the two
encodings (and of the caller's data, which it may hold in its closure). -/

namespace Secp
open Model Spec

theorem xdh_eq {P : Pt} {a b theirs : Bytes} {party : Int}
    (ht : theirs = if party ≠ 0 then a else b) (hP : EllDecodes theirs P) (out sk : Bytes)
    (h : EllswiftHash) {d : Fn} (hd : d ≠ 0)
    (hs : d = scCmov (scSetB32 sk).1 1 (scIsZero (scSetB32 sk).1)) :
    ellswiftXdh (some out) (some a) (some b) (some sk) party (some h) =
      (let r := h out (beBytes 32 (ptX (d • P))) a b
       ⟨cInt (r.1 ≠ 0 && !scIsZero (scSetB32 sk).1), 0, some r.2⟩) := by
  obtain ⟨h0, hx, -⟩ := hP
  obtain ⟨f1, f2, -⟩ := xswiftecFracVar_spec (ellU theirs) (ellT theirs)
  obtain rfl | ⟨x, y, hn, rfl⟩ := pt_cases P
  · exact absurd rfl h0
  rw [ptX_some] at hx
  have hx := ZMod.val_injective _ hx
  subst hx
  have hn' : E.Nonsingular ((xswiftecFracVar (ellU theirs) (ellT theirs)).1 /
      ((some (xswiftecFracVar (ellU theirs) (ellT theirs)).2).getD 1)) y := by
    rw [Option.getD_some, f2]; exact hn
  obtain ⟨x', y', h', e1, e2⟩ := C43_xonly_some (den := some _)
    (fun e => f1 (Option.some.inj e)) hd true hn'
  have e3 : (d • (.some _ _ hn : Pt)) = .some x' y' h' := by
    rw [← e1, ← val_smul]; congr 2; exact f2.symm
  simp only [ellswiftXdh, ← ht, ← hs]
  have e4 : ecmultConstXonly (xswiftecFracVar (feSetB32Mod theirs) (feSetB32Mod (theirs.drop 32))).1
    (some (xswiftecFracVar (feSetB32Mod theirs) (feSetB32Mod (theirs.drop 32))).2) d true = some x' := e2
  rw [e4, e3, ptX_some]
  rfl

/-- With a valid secret key, the function hashes the x coordinate of the product of the key and the
point that the other party's encoding (`ell_b64` for party 0, `ell_a64` otherwise) decodes to. -/
theorem C50_xdh {P : Pt} {a b : Bytes} {party : Int}
    (hP : EllDecodes (if party ≠ 0 then a else b) P) (out : Bytes) {sk : Bytes} (hl : sk.length = 32)
    (h1 : 1 ≤ beNat sk) (hn : beNat sk < n) (h : EllswiftHash) :
    ellswiftXdh (some out) (some a) (some b) (some sk) party (some h) =
      (let r := h out (beBytes 32 (ptX (beNat sk • P))) a b
       ⟨if r.1 = 0 then 0 else 1, 0, some r.2⟩) := by
  have e : (scSetB32 sk).1 = ((beNat sk : ℕ) : Fn) := by simp only [scSetB32]; rw [take32 hl]
  have h0 : ((beNat sk : ℕ) : Fn) ≠ 0 := cast_ne_zero (by omega) hn
  have hz : scIsZero (scSetB32 sk).1 = false := by
    rw [e]; exact decide_eq_false (fun h => h0 ((ZMod.val_eq_zero _).1 h))
  rw [xdh_eq rfl hP out sk h h0 (by rw [hz, e]; rfl), hz]
  simp only [natCast_smul, cInt, Bool.not_false, Bool.and_true, decide_eq_true_eq]
  split_ifs <;> simp_all

/-- Agreement: `a64` and `b64` are any encodings of the public keys of `a` and `b` (any 64-byte strings
that decode to them).  Party A calls with its key and party number 0, party B with its key and any other
number.  Both hash the x coordinate of `(a b) G` with both encodings, and get the same result. -/
theorem C50_agreement {a b a64 b64 : Bytes} (ha : a.length = 32) (hb : b.length = 32)
    (ha1 : 1 ≤ beNat a) (han : beNat a < n) (hb1 : 1 ≤ beNat b) (hbn : beNat b < n)
    (old : Bytes)
    (hA : ellswiftDecode (some old) (some a64) = ⟨1, 0, some (keyObject (beNat a • G))⟩)
    (hB : ellswiftDecode (some old) (some b64) = ⟨1, 0, some (keyObject (beNat b • G))⟩)
    {party : Int} (hparty : party ≠ 0) (out : Bytes) (h : EllswiftHash) :
    let r := h out (beBytes 32 (ptX ((beNat a * beNat b) • G))) a64 b64
    ellswiftXdh (some out) (some a64) (some b64) (some a) 0 (some h) =
      ⟨if r.1 = 0 then 0 else 1, 0, some r.2⟩ ∧
    ellswiftXdh (some out) (some a64) (some b64) (some b) party (some h) =
      ⟨if r.1 = 0 then 0 else 1, 0, some r.2⟩ := by
  have dec : ∀ {e : Bytes} {P : Pt},
      ellswiftDecode (some old) (some e) = ⟨1, 0, some (keyObject P)⟩ → EllDecodes e P := by
    intro e P h
    obtain ⟨Q, hQ, e'⟩ := decode_spec old e
    rw [e'] at h
    have := keyObject_injective (Option.some.inj (congrArg Out.val h))
    rwa [← this]
  have e1 : beNat a • beNat b • G = (beNat a * beNat b) • G := by rw [← mul_nsmul']
  have e2 : beNat b • beNat a • G = (beNat a * beNat b) • G := by rw [← mul_nsmul]
  intro r
  refine ⟨?_, ?_⟩
  · rw [C50_xdh (P := beNat b • G) (by rw [if_neg (by simp)]; exact dec hB) out ha ha1 han, e1]
  · rw [C50_xdh (P := beNat a • G) (by rw [if_pos hparty]; exact dec hA) out hb hb1 hbn, e2]

/-- The BIP-324 hash function writes the tagged hash of both encodings and the x coordinate, and
returns 1. -/
theorem C50_bip324_hash {out x a b : Bytes} (ho : out.length = 32) (hx : x.length = 32)
    (ha : a.length = 64) (hb : b.length = 64) :
    ellswiftHashBip324 out x a b = (1, taggedHash bip324Tag (a ++ b ++ x)) := by
  simp only [ellswiftHashBip324]
  rw [midHash3 bip324Mid_ok, List.take_of_length_le (by omega), List.take_of_length_le (by omega),
    List.take_of_length_le (by omega), put_zero_full (by rw [ho, taggedHash_length])]

/-- The prefix hash function writes the SHA-256 digest of the caller's 64 bytes, both encodings and the
x coordinate, and returns 1. -/
theorem C50_prefix_hash {data out x a b : Bytes} (hd : data.length = 64) (ho : out.length = 32)
    (hx : x.length = 32) (ha : a.length = 64) (hb : b.length = 64) :
    ellswiftHashPrefix data out x a b = (1, sha256 (data ++ a ++ b ++ x)) := by
  simp only [ellswiftHashPrefix]
  rw [(Hash.finalize_spec (Hash.write_absorbed (Hash.write_absorbed (Hash.write_absorbed
    (Hash.write_absorbed (Hash.init_absorbed _ Hash.uninit_buf) _) _) _) _)).1]
  rw [List.take_of_length_le (by omega), List.take_of_length_le (by omega),
    List.take_of_length_le (by omega), List.take_of_length_le (by omega), List.nil_append,
    put_zero_full (by rw [ho, Hash.sha_length])]

/-- The whole BIP-324 exchange: parties with valid keys make encodings with any randomness (not hitting a
multiple of `p`), and both get the tagged hash of the encodings and the x coordinate of `(a b) G`. -/
theorem C50_bip324_flow {ctx ctx' : Ctx} (hctx : LiveCtx ctx) (hctx' : LiveCtx ctx') {a b : Bytes}
    (ha : a.length = 32) (hb : b.length = 32) (ha1 : 1 ≤ beNat a) (han : beNat a < n)
    (hb1 : 1 ≤ beNat b) (hbn : beNat b < n) {ea eb a64 b64 out : Bytes} (hea : ea.length = 64)
    (heb : eb.length = 64) (ho : out.length = 32) (auxa auxb : Option Bytes) {fa fb : ℕ}
    (hA : ellswiftCreate ctx fa (some ea) (some a) auxa = some ⟨1, 0, some a64⟩) (ua : ellU a64 ≠ 0)
    (hB : ellswiftCreate ctx' fb (some eb) (some b) auxb = some ⟨1, 0, some b64⟩) (ub : ellU b64 ≠ 0) :
    let k := taggedHash bip324Tag (a64 ++ b64 ++ beBytes 32 (ptX ((beNat a * beNat b) • G)))
    ellswiftXdh (some out) (some a64) (some b64) (some a) 0 (some ellswiftHashBip324) =
      ⟨1, 0, some k⟩ ∧
    ellswiftXdh (some out) (some a64) (some b64) (some b) 1 (some ellswiftHashBip324) =
      ⟨1, 0, some k⟩ := by
  obtain ⟨e, i1, i2, i3⟩ := C49_create hctx ha ha1 han hea auxa hA
  obtain ⟨e', j1, j2, j3⟩ := C49_create hctx' hb hb1 hbn heb auxb hB
  have i1 := Option.some.inj (congrArg Out.val i1)
  have j1 := Option.some.inj (congrArg Out.val j1)
  subst i1 j1
  have := C50_agreement ha hb ha1 han hb1 hbn [] (i3 ua []) (j3 ub []) one_ne_zero out
    ellswiftHashBip324
  rw [C50_bip324_hash ho (Hash.beBytes_length _ _) i2 j2] at this
  exact this

theorem create_of_point {ctx : Ctx} (hctx : LiveCtx ctx) {sk : Bytes} (hs : sk.length = 32)
    (h1 : 1 ≤ beNat sk) (hn : beNat sk < n) {x y : Fp}
    (he : GeRep 7 ⟨x, y, false⟩ (((beNat sk : ℕ) : Fn) • G)) {fuel : ℕ} {r : Bytes × Fp}
    (hr : elligatorswiftVar fuel ⟨x, y, false⟩ (ellswiftCreateHasher sk none) = some r) :
    ellswiftCreate ctx fuel (some (zeros 64)) (some sk) none =
      some ⟨1, 0, some (ellswiftPut (zeros 64) r)⟩ := by
  obtain ⟨c1, c2, c3, c4⟩ := createHelper_rep hctx.ok sk
  have hb : ecmultGenIsBuilt ctx.gen = true := hctx.ok.built
  have hok : (ecPubkeyCreateHelper ctx.gen sk).2.2 = true := by
    rw [c3, scSetB32Seckey_iff, take32 hs]; omega
  have hd := c4 hok
  rw [take32 hs] at hd
  have hi := geRep_inf c1 (smul_G_ne c2)
  rw [hd] at c1
  obtain ⟨hn', e⟩ := c1.elim hi
  obtain ⟨hn'', e'⟩ := he.elim rfl
  rw [e'] at e
  simp only [WeierstrassCurve.Affine.Point.some.injEq] at e
  have hge : (⟨FeOps.normalize (ecPubkeyCreateHelper ctx.gen sk).2.1.x,
      FeOps.normalize (ecPubkeyCreateHelper ctx.gen sk).2.1.y,
      (ecPubkeyCreateHelper ctx.gen sk).2.1.infinity⟩ : Ge Fp) = ⟨x, y, false⟩ := by
    rw [hi, e.1, e.2]; rfl
  have hz : put (zeros 64) 0 (zeros 64) = zeros 64 := put_zero_full rfl
  simp only [ellswiftCreate, hb, hok, Bool.not_true, Bool.false_eq_true, if_false, hz]
  rw [hge, hr]
  rfl

/-- Encodings of the public keys of 1 and `n - 1` are found within four iterations in every live
context, and their first halves are not multiples of `p`. -/
theorem exEllCreate : ∀ ctx, LiveCtx ctx → ∃ a64 b64,
    ellswiftCreate ctx 4 (some (zeros 64)) (some (beBytes 32 1)) none = some ⟨1, 0, some a64⟩ ∧
    ellU a64 ≠ 0 ∧
    ellswiftCreate ctx 4 (some (zeros 64)) (some (beBytes 32 (n - 1))) none = some ⟨1, 0, some b64⟩ ∧
    ellU b64 ≠ 0 := by
  intro ctx hctx
  have hA : (elligatorswiftVar 4 ⟨(gx : ℕ), (gy : ℕ), false⟩ (ellswiftCreateHasher (beBytes 32 1) none)).all
      (fun r => decide (ellU (ellswiftPut (zeros 64) r) ≠ 0)) = true ∧
      (elligatorswiftVar 4 ⟨(gx : ℕ), (gy : ℕ), false⟩ (ellswiftCreateHasher (beBytes 32 1) none)).isSome
        = true := by decide +kernel
  have hB : (elligatorswiftVar 4 ⟨(gx : ℕ), -(gy : ℕ), false⟩
        (ellswiftCreateHasher (beBytes 32 (n - 1)) none)).all
      (fun r => decide (ellU (ellswiftPut (zeros 64) r) ≠ 0)) = true ∧
      (elligatorswiftVar 4 ⟨(gx : ℕ), -(gy : ℕ), false⟩
        (ellswiftCreateHasher (beBytes 32 (n - 1)) none)).isSome = true := by decide +kernel
  obtain ⟨ra, ea⟩ := Option.isSome_iff_exists.1 hA.2
  obtain ⟨rb, eb⟩ := Option.isSome_iff_exists.1 hB.2
  have v1 : beNat (beBytes 32 1) = 1 := by decide +kernel
  have v2 : beNat (beBytes 32 (n - 1)) = n - 1 := by decide +kernel
  have v3 : 1 < n := by decide +kernel
  have g2 : (((n - 1 : ℕ) : Fn)) • G = -G := by
    rw [Nat.cast_sub (by omega), cast_n, zero_sub, Nat.cast_one, neg_smul, one_smul]
  have gG : GeRep 7 (⟨(gx : ℕ), (gy : ℕ), false⟩ : Ge Fp) G := GeRep.intro rfl rfl rfl
  refine ⟨_, _, create_of_point hctx (Hash.beBytes_length _ _) (by omega) (by omega)
    (by rw [v1, Nat.cast_one, one_smul]; exact gG) ea, ?_,
    create_of_point hctx (Hash.beBytes_length _ _) (by omega) (by omega)
    (by rw [v2, g2]; exact geNeg_rep gG) eb, ?_⟩
  · have := hA.1; rw [ea] at this; simpa using this
  · have := hB.1; rw [eb] at this; simpa using this

/-! ### Concrete cases -/

/-- Every 64 bytes are the encoding of the public key of some secret key. -/
theorem exists_key_of_encoding (old e : Bytes) : ∃ d : Bytes, d.length = 32 ∧ 1 ≤ beNat d ∧ beNat d < n ∧
    ellswiftDecode (some old) (some e) = ⟨1, 0, some (keyObject (beNat d • G))⟩ := by
  obtain ⟨P, hP, h⟩ := decode_spec old e
  obtain ⟨a, ha⟩ := exists_smul_G P
  have ha0 : a.val ≠ 0 := fun h0 => hP.1 (by rw [← ha, (ZMod.val_eq_zero a).1 h0]; exact zero_smul Fn G)
  have e' : beNat (beBytes 32 a.val) = a.val := by
    rw [beNat_beBytes]
    exact Nat.mod_eq_of_lt ((ZMod.val_lt a).trans (by decide +kernel))
  refine ⟨beBytes 32 a.val, Hash.beBytes_length _ _, by rw [e']; omega, by rw [e']; exact ZMod.val_lt a, ?_⟩
  rw [e', val_smul, ha, h]

/-- The search for the key 1 without auxiliary randomness ends, with a nonzero first half. -/
theorem search_one : ∃ r, elligatorswiftVar 4 ⟨(gx : Fp), (gy : Fp), false⟩
    (ellswiftCreateHasher (beBytes 32 1) none) = some r ∧ ((beNat r.1 : ℕ) : Fp) ≠ 0 ∧ r.1.length = 32 := by
  have : ((elligatorswiftVar 4 ⟨(gx : Fp), (gy : Fp), false⟩
    (ellswiftCreateHasher (beBytes 32 1) none)).any fun r => decide (((beNat r.1 : ℕ) : Fp) ≠ 0) && decide (r.1.length = 32)) = true := by
    decide +kernel
  rw [Option.any_eq_true] at this
  obtain ⟨r, h1, h2⟩ := this
  simp only [Bool.and_eq_true, decide_eq_true_eq] at h2
  exact ⟨r, h1, h2⟩

theorem create_of_search {ctx : Ctx} (hctx : LiveCtx ctx) {sk : Bytes} (hl : sk.length = 32) (h1 : 1 ≤ beNat sk)
    (hn : beNat sk < n) {x y : Fp} (hx : ptX (beNat sk • G) = x.val) (hy : ptY (beNat sk • G) = y.val) {fuel : ℕ}
    {aux : Option Bytes} {r : Bytes × Fp}
    (h : elligatorswiftVar fuel ⟨x, y, false⟩ (ellswiftCreateHasher sk aux) = some r) (h3 : r.1.length = 32)
    (h2 : ((beNat r.1 : ℕ) : Fp) ≠ 0) :
    ∃ e, ellswiftCreate ctx fuel (some (zeros 64)) (some sk) aux = some ⟨1, 0, some e⟩ ∧ ellU e ≠ 0 := by
  obtain ⟨c1, c2, c3, c4⟩ := createHelper_rep hctx.ok sk
  have hb : ecmultGenIsBuilt ctx.gen = true := hctx.ok.built
  have hok : (ecPubkeyCreateHelper ctx.gen sk).2.2 = true := by
    rw [c3, scSetB32Seckey_iff, take32 hl]; omega
  have hd := c4 hok
  rw [take32 hl] at hd
  have h0 := smul_G_ne c2
  rw [hd, natCast_smul] at c1 h0
  unfold ellswiftCreate
  simp only
  clear c2 c3 c4 hd
  generalize ecPubkeyCreateHelper ctx.gen sk = H at c1 hok ⊢
  obtain ⟨a, ⟨x', y', i⟩, ok⟩ := H
  have ex : x' = x := ZMod.val_injective p ((geRep_x c1 h0).trans hx)
  have ey : y' = y := ZMod.val_injective p ((geRep_y c1 h0).trans hy)
  have ei : i = false := geRep_inf c1 h0
  obtain rfl : ok = true := hok
  subst ex ey ei
  have hn : ∀ x : Fp, FeOps.normalize x = x := fun _ => rfl
  simp only [hn, hb, h, Bool.not_true, Bool.false_eq_true, if_false]
  refine ⟨ellswiftPut (put (zeros 64) 0 (zeros 64)) r, rfl, ?_⟩
  rw [ellswiftPut_eq (by rw [put_zero_full rfl]; rfl) h3, ellU_append h3]
  unfold feSetB32Mod
  rw [take32 h3]
  exact h2

/-- The key 1 without auxiliary randomness. -/
theorem create_one {ctx : Ctx} (hctx : LiveCtx ctx) : ∃ e, ellswiftCreate ctx 4 (some (zeros 64))
    (some (beBytes 32 1)) none = some ⟨1, 0, some e⟩ ∧ ellU e ≠ 0 := by
  have hv : beNat (beBytes 32 1) = 1 := by decide +kernel
  obtain ⟨r, h1, h2, h3⟩ := search_one
  exact create_of_search hctx (Hash.beBytes_length _ _) (by rw [hv]) (by rw [hv]; decide +kernel)
    (x := (gx : Fp)) (y := (gy : Fp)) (by rw [hv, one_nsmul]; decide +kernel)
    (by rw [hv, one_nsmul]; decide +kernel) h1 h3 h2

/-- Two encodings, all-zero and all-ones, whose owners agree. -/
example (h : EllswiftHash) : ∃ a b : Bytes,
    ellswiftXdh (some (zeros 32)) (some (List.replicate 64 0)) (some (List.replicate 64 255)) (some a) 0 (some h) =
    ellswiftXdh (some (zeros 32)) (some (List.replicate 64 0)) (some (List.replicate 64 255)) (some b) 1 (some h) := by
  obtain ⟨a, ha, ha1, han, hA⟩ := exists_key_of_encoding [] (List.replicate 64 0)
  obtain ⟨b, hb, hb1, hbn, hB⟩ := exists_key_of_encoding [] (List.replicate 64 255)
  obtain ⟨e1, e2⟩ := C50_agreement ha hb ha1 han hb1 hbn [] hA hB (party := 1) one_ne_zero (zeros 32) h
  exact ⟨a, b, e1.trans e2.symm⟩

/-- `C50_xdh` for the all-zero encoding and the key 5. -/
example (h : EllswiftHash) : ∃ P : Pt, EllDecodes (zeros 64) P ∧
    ellswiftXdh (some (zeros 32)) (some (List.replicate 64 255)) (some (zeros 64)) (some (beBytes 32 5)) 0 (some h) =
      (let r := h (zeros 32) (beBytes 32 (ptX (beNat (beBytes 32 5) • P))) (List.replicate 64 255) (zeros 64)
       ⟨if r.1 = 0 then 0 else 1, 0, some r.2⟩) := by
  obtain ⟨P, hP, -⟩ := decode_spec [] (zeros 64)
  exact ⟨P, hP, C50_xdh (by simpa using hP) _ (Hash.beBytes_length _ _) (by decide +kernel) (by decide +kernel) h⟩

/-- The whole BIP-324 exchange for two parties that both hold the key 1. -/
example : ∃ ctx e, LiveCtx ctx ∧
    ellswiftCreate ctx 4 (some (zeros 64)) (some (beBytes 32 1)) none = some ⟨1, 0, some e⟩ ∧
    ellswiftXdh (some (zeros 32)) (some e) (some e) (some (beBytes 32 1)) 0 (some ellswiftHashBip324) =
      ellswiftXdh (some (zeros 32)) (some e) (some e) (some (beBytes 32 1)) 1 (some ellswiftHashBip324) := by
  have hctx := LiveCtx.create (junk := contextStatic comb22) (flags := 1) (Or.inr (Or.inl rfl)) rfl
  obtain ⟨e, h, hu⟩ := create_one hctx
  have hv : beNat (beBytes 32 1) = 1 := by decide +kernel
  have h1 : 1 ≤ beNat (beBytes 32 1) := by rw [hv]
  have hn : beNat (beBytes 32 1) < n := by rw [hv]; decide +kernel
  obtain ⟨e1, e2⟩ := C50_bip324_flow hctx hctx (Hash.beBytes_length _ _) (Hash.beBytes_length _ _) h1 hn h1 hn
    (ea := zeros 64) (eb := zeros 64) (out := zeros 32) rfl rfl rfl none none h hu h hu
  exact ⟨_, e, hctx, h, e1.trans e2.symm⟩

end Secp
