import Verif.Proof.LimbXonly
import Verif.Proof.EllswiftEnc
import Verif.Model.Limb.Ellswift

/-!
# ElligatorSwift computes the same on limbs as on values
-/

namespace Secp.Model
open Secp FeOps LimbRep
open Secp.Spec (beNat beBytes leNat leBytes)

variable {α : Type} [FeOps α] [FeMem α] [LimbRep α] [MemRep α]

namespace Limb

variable {c d : Ge α} {C D : Ge Fp} {x : Limb.Ctx α} {X : Model.Ctx}

theorem ellC1_limb : Rep (Limb.ellC1 : α) 1 Model.ellC1 := by
  have h := MemRep.rep (MemRep.feConst (α := α)
    (k := 0x851695d49a83f8ef919bb86153cbcb16630fb68aed0a766a3ec693d68e6afa40) (by unfold p; decide))
  rw [Nat.cast_ofNat] at h
  exact h

theorem ellC2_limb : Rep (Limb.ellC2 : α) 1 Model.ellC2 := by
  have h := MemRep.rep (MemRep.feConst (α := α)
    (k := 0x7ae96a2b657c07106e64479eac3434e99cf0497512f58995c1396c28719501ee) (by unfold p; decide))
  rw [Nat.cast_ofNat] at h
  exact h

theorem ellC3_limb : Rep (Limb.ellC3 : α) 1 Model.ellC3 := by
  have h := MemRep.rep (MemRep.feConst (α := α)
    (k := 0x7ae96a2b657c07106e64479eac3434e99cf0497512f58995c1396c28719501ef) (by unfold p; decide))
  rw [Nat.cast_ofNat] at h
  exact h

theorem ellC4_limb : Rep (Limb.ellC4 : α) 1 Model.ellC4 := by
  have h := MemRep.rep (MemRep.feConst (α := α)
    (k := 0x851695d49a83f8ef919bb86153cbcb16630fb68aed0a766a3ec693d68e6afa41) (by unfold p; decide))
  rw [Nat.cast_ofNat] at h
  exact h

variable {a b : α} {A B : Fp} {m k : ℕ}

theorem isSquare_limb (h : Rep a m A) (hm : m ≤ 31 := by omega) :
    Limb.feIsSquareVar a = Model.feIsSquareVar A := MemRep.isSquareVar (h.mono hm)

theorem geXOnCurveVar_limb (h : Rep a m A) (hm : m ≤ 8) :
    Limb.geXOnCurveVar a = Model.geXOnCurveVar A :=
  isSquare_limb ((h.sqr'.mul' h).addInt' curveB)

theorem geXFracOnCurveVar_limb (ha : Rep a m A) (hb : Rep b k B) (hm : m ≤ 8) (hk : k ≤ 8) :
    Limb.geXFracOnCurveVar a b = Model.geXFracOnCurveVar A B := by
  have r := (hb.mul' ha).mul' ha.sqr'
  have t := hb.sqr'.sqr'.mulInt' curveB (by unfold curveB; omega)
  exact isSquare_limb (r.add' t (by unfold curveB; omega)) (by unfold curveB; omega)

theorem rep_ite {q : Prop} [Decidable q] (ha : Rep a m A) (hb : Rep b k B) :
    Rep (if q then a else b) (max m k) (if q then A else B) := by
  split_ifs
  · exact ha.mono (le_max_left _ _)
  · exact hb.mono (le_max_right _ _)

theorem xswiftecFracVar_limb (hu : Rep a 1 A) (ht : Rep b 1 B) :
    Rep (Limb.xswiftecFracVar a b).1 3 (Model.xswiftecFracVar A B).1 ∧
    Rep (Limb.xswiftecFracVar a b).2 6 (Model.xswiftecFracVar A B).2 := by
  unfold Limb.xswiftecFracVar Model.xswiftecFracVar
  dsimp only
  rw [hu.toZero, ht.toZero]
  have u1 := rep_ite (q := normalizesToZero A = true) (Rep.int 1) hu
  have s1 := rep_ite (q := normalizesToZero B = true) (Rep.int 1) ht.sqr'
  revert u1 s1
  generalize (if normalizesToZero A = true then (setInt 1 : α) else a) = u
  generalize (if normalizesToZero A = true then (setInt 1 : Fp) else A) = U
  generalize (if normalizesToZero B = true then (setInt 1 : α) else sqr b) = s
  generalize (if normalizesToZero B = true then (setInt 1 : Fp) else sqr B) = S
  intro u1 s1
  have u1 : Rep u 1 U := u1
  have s1 : Rep s 1 S := s1
  have l := u1.sqr'
  have g := (l.mul' u1).addInt' curveB
  rw [(g.add' s1).toZero]
  have s2 := rep_ite (q := normalizesToZero (add (addInt (mul (sqr U) U) curveB) S) = true) (s1.mulInt' 4) s1
  revert s2
  generalize (if normalizesToZero (add (addInt (mul (sqr U) U) curveB) S) = true then mulInt s 4 else s) = s'
  generalize (if normalizesToZero (add (addInt (mul (sqr U) U) curveB) S) = true then mulInt S 4 else S) = S'
  intro s2
  have s2 : Rep s' 4 S' := s2
  have q : Rep _ 6 _ := g.add' s2
  have d : Rep _ 3 _ := (s2.mul' l).mulInt' 3
  have n : Rep _ 3 _ := (d.mul' u1).add' (q.sqr'.negate' 1)
  have n2 := ((ellC2_limb.mul' g).add' (ellC1_limb.mul' s2)).mul' u1
  rw [geXFracOnCurveVar_limb n d (by omega) (by omega), geXFracOnCurveVar_limb n2 q (by omega) (by omega)]
  split_ifs
  · exact ⟨n, d.mono (by omega)⟩
  · exact ⟨n2.mono (by omega), q⟩
  · exact ⟨(n2.add' (q.mul' u1)).negate' 2, q⟩

theorem xswiftecVar_limb (hu : Rep a 1 A) (ht : Rep b 1 B) :
    Rep (Limb.xswiftecVar a b) 1 (Model.xswiftecVar A B) := by
  obtain ⟨n, d⟩ := xswiftecFracVar_limb hu ht
  exact n.mul' (MemRep.inv.okVar (d.mono (by omega)))

theorem swiftecVar_limb (hu : Rep a 1 A) (ht : MemRep.Norm b B) :
    GeLimb (Limb.swiftecVar a b) (Model.swiftecVar A B) := by
  have h := (xswiftecVar_limb hu (MemRep.rep ht)).mono (by omega : 1 ≤ 2)
  unfold Limb.swiftecVar Model.swiftecVar
  rw [show Limb.feIsOdd b = _ from MemRep.isOdd ht]
  exact (geSetXoVar_limb h _).2

theorem xswiftecInvEnd_limb {s v : α} {S V : Fp} (hu : Rep a 1 A) (hs : Rep s 3 S) (hv : Rep v 3 V) (c : ℕ) :
    Rep (Limb.xswiftecInvEnd a s v c) 1 (Model.xswiftecInvEnd A S V c) := by
  have r := (hs.sqrt).1
  have m : Rep _ 2 _ := rep_ite (q := c &&& 5 = 0 ∨ c &&& 5 = 5) (r.negate' 1) r
  have e : Rep _ 1 _ := rep_ite (α := α) (q := c &&& 1 = 1) ellC4_limb ellC3_limb
  exact m.mul' ((hu.mul' e).add' hv)

abbrev Rep1 (a : α) (A : Fp) : Prop := Rep a 1 A

theorem xswiftecInvVar_limb (hx : Rep a m A) (hu : Rep b k B) (hm : m ≤ 31) (hk : k ≤ 31) (c : ℕ) :
    Option.Rel Rep1 (Limb.xswiftecInvVar a b c) (Model.xswiftecInvVar A B c) := by
  unfold Limb.xswiftecInvVar Model.xswiftecInvVar
  dsimp only
  have x1 := hx.weak
  have u1 := hu.weak
  by_cases h2 : c &&& 2 = 0
  · rw [if_pos h2, if_pos h2]
    have m3 : Rep _ 3 _ := (x1.add' u1).negate' 2
    have s3 : Rep _ 3 _ := (m3.sqr'.negate' 1).add' (u1.mul' x1)
    have g2 : Rep _ 2 _ := (u1.sqr'.mul' u1).addInt' curveB
    rw [geXOnCurveVar_limb m3 (by omega), isSquare_limb (s3.mul' g2)]
    split_ifs
    · exact .none
    · exact .none
    · exact .some (xswiftecInvEnd_limb u1 (((MemRep.inv.okVar (s3.mono (by omega))).mul' g2).mono (by omega))
        (x1.mono (by omega)) c)
  · rw [if_neg h2, if_neg h2]
    have m2 : Rep _ 2 _ := u1.negate' 1
    have s3 : Rep _ 3 _ := m2.add' x1
    have g := u1.sqr'
    have q3 : Rep _ 3 _ := (s3.mul' g).mulInt' 3
    have g5 : Rep _ 5 _ := ((g.mul' u1).mulInt' 4).addInt' (4 * curveB)
    have q2 : Rep _ 2 _ := ((q3.add' g5).mul' s3).negate' 1
    obtain ⟨r1, -⟩ := q2.sqrt
    rw [isSquare_limb s3, isSquare_limb q2, r1.toZero, s3.toZero]
    split_ifs
    · exact .none
    · exact .none
    · exact .none
    · exact .none
    · have v := (((MemRep.inv.okVar (s3.mono (by omega))).mul' r1).add' m2).half'
      exact .some (xswiftecInvEnd_limb u1 s3 (v.mono (by omega)) c)

/-- The pair of the output bytes and the element that follows. -/
def EllLimb (r : List UInt8 × α) (R : List UInt8 × Fp) : Prop := r.1 = R.1 ∧ Rep r.2 1 R.2

theorem xelligatorswiftLoop_limb (hx : Rep a m A) (hm : m ≤ 31) {hasher : Hash.Sha} {msg : List UInt8}
    (hh : Hash.Absorbed hasher msg) (fuel : ℕ) :
    ∀ bh left cnt, Option.Rel EllLimb (Limb.xelligatorswiftLoop a hasher fuel bh left cnt)
      (Model.xelligatorswiftLoop A hasher fuel bh left cnt) := by
  induction fuel with
  | zero => intro bh left cnt; exact .none
  | succ f ih =>
    intro bh left cnt
    rw [Limb.xelligatorswiftLoop, Model.xelligatorswiftLoop]
    have hl : 32 ≤ (ellswiftPrng hasher (ellPool hasher bh left cnt).2.2).length := by
      exact (prng_length hh _).ge
    have hu := MemRep.setB32Mod (α := α) hl
    have r := xswiftecInvVar_limb hx hu hm (by omega)
      (ellBranch (ellPool hasher bh left cnt).1 ((ellPool hasher bh left cnt).2.1 - 1))
    revert r
    unfold Limb.feSetB32Mod
    generalize Limb.xswiftecInvVar a _ _ = s
    generalize Model.xswiftecInvVar A _ _ = S
    intro r
    cases r with
    | none => exact ih _ _ _
    | some h => exact .some ⟨rfl, h⟩

/-- The output pair when the element has been normalized. -/
def EllNorm (r : List UInt8 × α) (R : List UInt8 × Fp) : Prop := r.1 = R.1 ∧ MemRep.Norm r.2 R.2

theorem elligatorswiftVar_limb (hc : GeNorm c C) (fuel : ℕ) {hasher : Hash.Sha} {msg : List UInt8}
    (hh : Hash.Absorbed hasher msg) :
    Option.Rel EllNorm (Limb.elligatorswiftVar fuel c hasher) (Model.elligatorswiftVar fuel C hasher) := by
  have r := xelligatorswiftLoop_limb (MemRep.rep hc.x) (by omega) hh fuel [] 0 0
  unfold Limb.elligatorswiftVar Model.elligatorswiftVar Limb.xelligatorswiftVar Model.xelligatorswiftVar
  revert r
  generalize Limb.xelligatorswiftLoop c.x hasher fuel [] 0 0 = s
  generalize Model.xelligatorswiftLoop C.x hasher fuel [] 0 0 = S
  intro r
  cases r with
  | none => exact .none
  | some h =>
    obtain ⟨h1, h2⟩ := h
    have n := norm_of_rep h2
    dsimp only
    rw [norm_odd h2, show Limb.feIsOdd c.y = _ from MemRep.isOdd hc.y]
    refine .some ⟨h1, ?_⟩
    dsimp only
    split_ifs
    · exact norm_of_rep ((MemRep.rep n).negate' 1)
    · exact n

theorem ellswiftPut_limb (ell : List UInt8) {r : List UInt8 × α} {R : List UInt8 × Fp} (h : EllNorm r R) :
    Limb.ellswiftPut ell r = Model.ellswiftPut ell R := by
  unfold Limb.ellswiftPut Model.ellswiftPut
  rw [h.1, show Limb.feGetB32 r.2 = _ from MemRep.getB32 h.2]

theorem ellswiftEncode_eq (fuel : ℕ) (ell pubkey rnd : Option (List UInt8)) :
    Limb.ellswiftEncode α fuel ell pubkey rnd = Model.ellswiftEncode fuel ell pubkey rnd := by
  unfold Limb.ellswiftEncode Model.ellswiftEncode
  cases ell with
  | none => rfl
  | some ell =>
    cases pubkey with
    | none => rfl
    | some pubkey =>
      cases rnd with
      | none => rfl
      | some rnd =>
        obtain ⟨e, l⟩ := pubkeyLoad_limb α pubkey
        dsimp only
        rw [e, eckeyPubkeySerialize_limb l]
        split_ifs
        · have n : GeNorm (⟨FeOps.normalize (Limb.pubkeyLoad α pubkey).1.x,
              FeOps.normalize (Limb.pubkeyLoad α pubkey).1.y, (Limb.pubkeyLoad α pubkey).1.infinity⟩ : Ge α)
              (Model.pubkeyLoad pubkey).1 := ⟨norm_of_rep l.x, norm_of_rep l.y, l.inf⟩
          have r := elligatorswiftVar_limb n fuel (Hash.write_absorbed (Hash.write_absorbed
            (midstate_absorbed _ Hash.uninit_buf encodeMid_ok)
            ((Model.eckeyPubkeySerialize (Model.pubkeyLoad pubkey).1 (zeros 64) 0 true).1.take 64)) (rnd.take 32))
          revert r
          generalize Limb.elligatorswiftVar (α := α) fuel _ _ = s
          generalize Model.elligatorswiftVar fuel _ _ = S
          intro r
          cases r with
          | none => rfl
          | some h => dsimp only; rw [ellswiftPut_limb ell h]
        · rfl

theorem ellswiftCreate_eq (h : CtxLimb x X) (fuel : ℕ) (ell seckey aux : Option (List UInt8)) :
    Limb.ellswiftCreate x fuel ell seckey aux = Model.ellswiftCreate X fuel ell seckey aux := by
  unfold Limb.ellswiftCreate Model.ellswiftCreate
  cases ell with
  | none => rfl
  | some ell =>
    dsimp only
    rw [h.built]
    split_ifs
    · rfl
    · cases seckey with
      | none => rfl
      | some seckey =>
        obtain ⟨e1, l, e2⟩ := createHelper_limb h seckey
        have n : GeNorm (⟨FeOps.normalize (Limb.ecPubkeyCreateHelper x.gen seckey).2.1.x,
            FeOps.normalize (Limb.ecPubkeyCreateHelper x.gen seckey).2.1.y,
            (Limb.ecPubkeyCreateHelper x.gen seckey).2.1.infinity⟩ : Ge α)
            ⟨FeOps.normalize (Model.ecPubkeyCreateHelper X.gen seckey).2.1.x,
            FeOps.normalize (Model.ecPubkeyCreateHelper X.gen seckey).2.1.y,
            (Model.ecPubkeyCreateHelper X.gen seckey).2.1.infinity⟩ := ⟨norm_of_rep l.x, norm_of_rep l.y, l.inf⟩
        obtain ⟨msg, hh⟩ := createHasher_absorbed seckey aux
        have r := elligatorswiftVar_limb n fuel hh
        dsimp only
        rw [e2]
        revert r
        generalize Limb.elligatorswiftVar (α := α) fuel _ _ = s
        generalize Model.elligatorswiftVar fuel _ _ = S
        intro r
        cases r with
        | none => rfl
        | some h => dsimp only; rw [ellswiftPut_limb _ h]

theorem ellswiftDecode_eq (pubkey : Option (List UInt8)) {ell : Option (List UInt8)}
    (hl : ∀ e ∈ ell, 64 ≤ e.length) :
    Limb.ellswiftDecode α pubkey ell = Model.ellswiftDecode pubkey ell := by
  unfold Limb.ellswiftDecode Model.ellswiftDecode
  cases pubkey with
  | none => rfl
  | some _ =>
    cases ell with
    | none => rfl
    | some e =>
      have l := hl e rfl
      have u := MemRep.setB32Mod (α := α) (b := e) (by omega)
      have t := MemRep.setB32Mod (α := α) (b := e.drop 32) (by rw [List.length_drop]; omega)
      dsimp only
      unfold Limb.feSetB32Mod
      rw [pubkeySave_limb (swiftecVar_limb u (norm_of_rep t))]

theorem ecmultConstXonly_limb {d : Option α} {D : Option Fp} (ha : Rep a m A) (hm : m ≤ 8)
    (hd : Option.Rel (fun d D => Rep d 8 D) d D) (q : Fn) (known : Bool) :
    Option.Rel Rep1 (Limb.ecmultConstXonly a d q known) (Model.ecmultConstXonly A D q known) := by
  have g1 := ha.sqr'.mul' ha
  unfold Limb.ecmultConstXonly Model.ecmultConstXonly
  cases hd with
  | none =>
    have g2 : Rep _ 2 _ := g1.addInt' curveB
    dsimp only
    rw [isSquare_limb g2]
    split_ifs
    · exact .none
    · have px := g2.mul' ha
      have py := g2.sqr'
      have r := ecmultConst_limb (c := ⟨_, _, false⟩) (C := ⟨_, _, false⟩)
        ⟨px.mono (by omega), py.mono (by omega), rfl⟩ q
      have i := r.z.sqr'.mul' g2
      exact .some (r.x.mul' (MemRep.inv.ok (i.mono (by omega))))
  | some h =>
    have b := (h.sqr'.mulInt' curveB (by unfold curveB; omega)).mul' h (by unfold curveB; omega)
    have g2 : Rep _ 2 _ := g1.add' b
    dsimp only
    rw [isSquare_limb (g2.mul' h)]
    split_ifs
    · exact .none
    · have px := g2.mul' ha
      have py := g2.sqr'
      have r := ecmultConst_limb (c := ⟨_, _, false⟩) (C := ⟨_, _, false⟩)
        ⟨px.mono (by omega), py.mono (by omega), rfl⟩ q
      have i := (r.z.sqr'.mul' g2).mul' h
      exact .some (r.x.mul' (MemRep.inv.ok (i.mono (by omega))))

theorem ellswiftXdh_eq (output : Option (List UInt8)) {ellA ellB : Option (List UInt8)}
    (hA : ∀ e ∈ ellA, 64 ≤ e.length) (hB : ∀ e ∈ ellB, 64 ≤ e.length) (seckey : Option (List UInt8))
    (party : Int) (f : Option EllswiftHash) :
    Limb.ellswiftXdh α output ellA ellB seckey party f = Model.ellswiftXdh output ellA ellB seckey party f := by
  unfold Limb.ellswiftXdh Model.ellswiftXdh
  cases output with
  | none => rfl
  | some out =>
    cases ellA with
    | none => rfl
    | some ea =>
      cases ellB with
      | none => rfl
      | some eb =>
        cases seckey with
        | none => rfl
        | some seckey =>
          cases f with
          | none => rfl
          | some f =>
            have l : 64 ≤ (if party ≠ 0 then ea else eb).length := by
              split_ifs
              · exact hA _ rfl
              · exact hB _ rfl
            dsimp only
            revert l
            generalize (if party ≠ 0 then ea else eb) = e
            intro l
            have u := MemRep.setB32Mod (α := α) (b := e) (by omega)
            have t := MemRep.setB32Mod (α := α) (b := e.drop 32) (by rw [List.length_drop]; omega)
            obtain ⟨xn, xd⟩ := xswiftecFracVar_limb u t
            have r := ecmultConstXonly_limb xn (by omega) (.some (xd.mono (by omega)))
              (scCmov (scSetB32 seckey).1 1 (scIsZero (scSetB32 seckey).1)) true
            have k : Rep ((Limb.ecmultConstXonly (Limb.xswiftecFracVar (FeMem.setB32Mod e : α)
                (FeMem.setB32Mod (e.drop 32))).1 (some (Limb.xswiftecFracVar (FeMem.setB32Mod e : α)
                (FeMem.setB32Mod (e.drop 32))).2)
                (scCmov (scSetB32 seckey).1 1 (scIsZero (scSetB32 seckey).1)) true).getD (setInt 0)) 1
                ((Model.ecmultConstXonly (Model.xswiftecFracVar (Model.feSetB32Mod e)
                  (Model.feSetB32Mod (e.drop 32))).1 (some (Model.xswiftecFracVar (Model.feSetB32Mod e)
                  (Model.feSetB32Mod (e.drop 32))).2)
                  (scCmov (scSetB32 seckey).1 1 (scIsZero (scSetB32 seckey).1)) true).getD 0) := by
              revert r
              generalize Limb.ecmultConstXonly (α := α) _ _ _ _ = s
              generalize Model.ecmultConstXonly _ _ _ _ = S
              intro r
              cases r with
              | none =>
                have h := Rep.int (α := α) 0
                rw [show (setInt 0 : Fp) = 0 from Nat.cast_zero] at h
                exact h
              | some h => exact h
            have e := norm_b32 k
            unfold Limb.feSetB32Mod
            rw [e]

end Limb

end Secp.Model
