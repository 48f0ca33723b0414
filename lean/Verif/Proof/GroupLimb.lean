import Verif.Proof.LimbRep

/-!
# The group code on limbs refines the group code on field values
-/

namespace Secp.Model

open FeOps LimbRep
variable {α : Type} [FeOps α] [LimbRep α]

/-- The limbs `a` obey the documented bounds of an affine point (group.h:49-50) and stand for `A`. -/
structure GeLimb (a : Ge α) (A : Ge Fp) : Prop where
  x : Rep a.x 4 A.x
  y : Rep a.y 3 A.y
  inf : a.infinity = A.infinity

/-- The limbs `a` obey the documented bounds of a Jacobian point (group.h:51-53) and stand for
`A`. -/
structure GejLimb (a : Gej α) (A : Gej Fp) : Prop where
  x : Rep a.x 4 A.x
  y : Rep a.y 4 A.y
  z : Rep a.z 1 A.z
  inf : a.infinity = A.infinity

variable {m : ℕ} {a b : Gej α} {A B : Gej Fp} {c d : Ge α} {C D : Ge Fp}

theorem GejLimb.double (h : GejLimb a A) : GejLimb (gejDouble a) (gejDouble A) := by
  have rz := h.z.mul' h.y
  have s := h.y.sqr'
  have l := ((h.x.sqr').mulInt' 3).half'
  have t := (s.negate' 1).mul' h.x
  have rx := (l.sqr'.add' t).add' t
  have s := s.sqr'
  have t := t.add' rx
  have ry := ((t.mul' l).add' s).negate' 2
  unfold gejDouble
  exact ⟨rx.mono (by omega), ry.mono (by omega), rz, h.inf⟩

theorem GejLimb.infinity : GejLimb (gejInfinity : Gej α) (gejInfinity : Gej Fp) := by
  unfold gejInfinity
  exact ⟨(Rep.int 0).mono (by omega), (Rep.int 0).mono (by omega), Rep.int 0, rfl⟩

theorem GeLimb.infinity : GeLimb (geInfinity : Ge α) (geInfinity : Ge Fp) := by
  unfold geInfinity
  exact ⟨(Rep.int 0).mono (by omega), (Rep.int 0).mono (by omega), rfl⟩

theorem GeLimb.gej (h : GeLimb c C) : GejLimb (gejSetGe c) (gejSetGe C) := by
  unfold gejSetGe
  exact ⟨h.x, h.y.mono (by omega), Rep.int 1, h.inf⟩

theorem GeLimb.neg (h : GeLimb c C) : GeLimb (geNeg c) (geNeg C) := by
  unfold geNeg
  exact ⟨h.x, ((h.y.weak).negate' 1).mono (by omega), h.inf⟩

theorem GejLimb.neg (h : GejLimb a A) : GejLimb (gejNeg a) (gejNeg A) := by
  unfold gejNeg
  exact ⟨h.x, ((h.y.weak).negate' 1).mono (by omega), h.z, h.inf⟩

theorem GejLimb.zinv {zi : α} {Z : Fp} (h : GejLimb a A) (hz : Rep zi 1 Z) :
    GeLimb (geSetGejZinv a zi) (geSetGejZinv A Z) := by
  have zi2 := hz.sqr'
  have zi3 := zi2.mul' hz
  have x := h.x.mul' zi2
  have y := h.y.mul' zi3
  unfold geSetGejZinv
  exact ⟨x.mono (by omega), y.mono (by omega), h.inf⟩

theorem GeLimb.zinv {zi : α} {Z : Fp} (h : GeLimb c C) (hz : Rep zi 1 Z) :
    GeLimb (geSetGeZinv c zi) (geSetGeZinv C Z) := by
  have zi2 := hz.sqr'
  have zi3 := zi2.mul' hz
  have x := h.x.mul' zi2
  have y := h.y.mul' zi3
  unfold geSetGeZinv
  exact ⟨x.mono (by omega), y.mono (by omega), h.inf⟩

theorem GeLimb.valid (h : GeLimb c C) : geIsValidVar c = geIsValidVar C := by
  have y2 := h.y.sqr'
  have x3 := (h.x.sqr'.mul' h.x).addInt' curveB
  have e := y2.equal x3
  unfold geIsValidVar
  rw [h.inf]
  by_cases c1 : C.infinity = true
  · rw [if_pos c1, if_pos c1]
  · rw [if_neg c1, if_neg c1]
    exact e

/-- The optional ratio of the z coordinates. -/
def RzrLimb : Option α → Option Fp → Prop
  | none, none => True
  | some r, some R => Rep r 6 R
  | _, _ => False

theorem GejLimb.doubleVar (h : GejLimb a A) :
    GejLimb (gejDoubleVar a).1 (gejDoubleVar A).1 ∧
      RzrLimb (gejDoubleVar a).2 (gejDoubleVar A).2 := by
  unfold gejDoubleVar
  rw [h.inf]
  cases A.infinity
  · exact ⟨h.double, h.y.weak.mono (by omega)⟩
  · exact ⟨GejLimb.infinity, (Rep.int 1).mono (by omega)⟩

theorem GejLimb.addVar (h : GejLimb a A) (g : GejLimb b B) :
    GejLimb (gejAddVar a b).1 (gejAddVar A B).1 ∧
      RzrLimb (gejAddVar a b).2 (gejAddVar A B).2 := by
  have z22 := g.z.sqr'
  have z12 := h.z.sqr'
  have u1 := h.x.mul' z22
  have u2 := g.x.mul' z12
  have s1 := (h.y.mul' z22).mul' g.z
  have s2 := (g.y.mul' z12).mul' h.z
  have hh := (u1.negate' 1).add' u2
  have ii := (s2.negate' 1).add' s1
  have t := hh.mul' g.z
  have rz := h.z.mul' t
  have h2 := hh.sqr'.negate' 1
  have h3 := h2.mul' hh
  have t' := u1.mul' h2
  have rx := ((ii.sqr'.add' h3).add' t').add' t'
  have t'' := t'.add' rx
  have ry := (t''.mul' ii).add' (h3.mul' s1)
  have zh := hh.toZero
  have zi := ii.toZero
  have dbl := h.doubleVar
  unfold gejAddVar
  rw [h.inf, g.inf]
  by_cases c1 : A.infinity = true
  · rw [if_pos c1, if_pos c1]
    exact ⟨g, trivial⟩
  rw [if_neg c1, if_neg c1]
  by_cases c2 : B.infinity = true
  · rw [if_pos c2, if_pos c2]
    exact ⟨h, (Rep.int 1).mono (by omega)⟩
  rw [if_neg c2, if_neg c2]
  simp only [zh, zi]
  split_ifs
  · exact dbl
  · exact ⟨GejLimb.infinity, (Rep.int 0).mono (by omega)⟩
  · exact ⟨⟨rx.mono (by omega), ry.mono (by omega), rz, rfl⟩, t.mono (by omega)⟩

theorem GejLimb.addGeVar (h : GejLimb a A) (g : GeLimb c C) :
    GejLimb (gejAddGeVar a c).1 (gejAddGeVar A C).1 ∧
      RzrLimb (gejAddGeVar a c).2 (gejAddGeVar A C).2 := by
  have z12 := h.z.sqr'
  have u1 := h.x
  have u2 := g.x.mul' z12
  have s1 := h.y
  have s2 := (g.y.mul' z12).mul' h.z
  have hh := (u1.negate' gejXMag (by decide) (by decide)).add' u2 (by decide)
  have ii := (s2.negate' 1).add' s1
  have rz := h.z.mul' hh (by decide) (by decide)
  have h2 := (hh.sqr' (by decide)).negate' 1
  have h3 := h2.mul' hh (by decide) (by decide)
  have t' := u1.mul' h2
  have rx := ((ii.sqr'.add' h3).add' t').add' t'
  have t'' := t'.add' rx
  have ry := (t''.mul' ii).add' (h3.mul' s1)
  have zh := hh.toZero (by decide)
  have zi := ii.toZero
  have dbl := h.doubleVar
  unfold gejAddGeVar
  rw [h.inf, g.inf]
  by_cases c1 : A.infinity = true
  · rw [if_pos c1, if_pos c1]
    exact ⟨g.gej, trivial⟩
  rw [if_neg c1, if_neg c1]
  by_cases c2 : C.infinity = true
  · rw [if_pos c2, if_pos c2]
    exact ⟨h, (Rep.int 1).mono (by omega)⟩
  rw [if_neg c2, if_neg c2]
  simp only [zh, zi]
  split_ifs
  · exact dbl
  · exact ⟨GejLimb.infinity, (Rep.int 0).mono (by omega)⟩
  · exact ⟨⟨rx.mono (by omega), ry.mono (by omega), rz, rfl⟩, hh.mono (by decide)⟩

theorem GejLimb.addZinvVar {zi : α} {Z : Fp} (h : GejLimb a A) (g : GeLimb c C)
    (hz : Rep zi 1 Z) : GejLimb (gejAddZinvVar a c zi) (gejAddZinvVar A C Z) := by
  have b2 := hz.sqr'
  have b3 := b2.mul' hz
  have bx := g.x.mul' b2
  have bY := g.y.mul' b3
  have az := h.z.mul' hz
  have z12 := az.sqr'
  have u1 := h.x
  have u2 := g.x.mul' z12
  have s1 := h.y
  have s2 := (g.y.mul' z12).mul' az
  have hh := (u1.negate' gejXMag (by decide) (by decide)).add' u2 (by decide)
  have ii := (s2.negate' 1).add' s1
  have rz := h.z.mul' hh (by decide) (by decide)
  have h2 := (hh.sqr' (by decide)).negate' 1
  have h3 := h2.mul' hh (by decide) (by decide)
  have t' := u1.mul' h2
  have rx := ((ii.sqr'.add' h3).add' t').add' t'
  have t'' := t'.add' rx
  have ry := (t''.mul' ii).add' (h3.mul' s1)
  have zh := hh.toZero (by decide)
  have zi := ii.toZero
  have dbl := h.doubleVar
  unfold gejAddZinvVar
  rw [h.inf, g.inf]
  by_cases c1 : A.infinity = true
  · rw [if_pos c1, if_pos c1]
    exact ⟨bx.mono (by omega), bY.mono (by omega), Rep.int 1, rfl⟩
  rw [if_neg c1, if_neg c1]
  by_cases c2 : C.infinity = true
  · rw [if_pos c2, if_pos c2]
    exact h
  rw [if_neg c2, if_neg c2]
  simp only [zh, zi]
  split_ifs
  · exact dbl.1
  · exact GejLimb.infinity
  · exact ⟨rx.mono (by omega), ry.mono (by omega), rz, rfl⟩

theorem GejLimb.addGe (h : GejLimb a A) (g : GeLimb c C) :
    GejLimb (gejAddGe a c) (gejAddGe A C) := by
  have zz := h.z.sqr'
  have u1 := h.x
  have u2 := g.x.mul' zz
  have s1 := h.y
  have s2 := (g.y.mul' zz).mul' h.z
  have t := u1.add' u2
  have m := s1.add' s2
  have rr := t.sqr'
  have malt := u2.negate' 1
  have tt := u1.mul' malt
  have rr := rr.add' tt
  have deg := m.toZero
  have rralt := s1.mulInt' 2
  have malt := malt.add' u1
  have rralt := rralt.cmov' rr (!FeOps.normalizesToZero (FeOps.add A.y
    (FeOps.mul (FeOps.mul C.y (FeOps.sqr A.z)) A.z)))
  have malt := malt.cmov' m (!FeOps.normalizesToZero (FeOps.add A.y
    (FeOps.mul (FeOps.mul C.y (FeOps.sqr A.z)) A.z)))
  have n := malt.sqr' (by decide)
  have q := (t.negate' (gejXMag + 1) (by decide) (by decide)).mul' n (by decide)
  have n := n.sqr'.cmov' m (FeOps.normalizesToZero (FeOps.add A.y
    (FeOps.mul (FeOps.mul C.y (FeOps.sqr A.z)) A.z)))
  have t := rralt.sqr' (by decide)
  have rz := h.z.mul' malt (by decide) (by decide)
  have t := t.add' q
  have rx := t
  have t := ((t.mulInt' 2).add' q)
  have t := (t.mul' rralt (by decide) (by decide)).add' n (by decide)
  have ry := (t.negate' (gejYMag + 2) (by decide) (by decide)).half' (by decide)
  have rx := rx.cmov' g.x A.infinity
  have ry := ry.cmov' g.y A.infinity (by decide)
  have rz := rz.cmov' (Rep.int 1) A.infinity
  have zr := rz.toZero (by decide)
  unfold gejAddGe
  simp only [deg, h.inf]
  exact ⟨rx.mono (by decide), ry.mono (by decide), rz.mono (by decide), zr⟩

theorem GejLimb.rescale {s : α} {S : Fp} (h : GejLimb a A) (hs : Rep s 1 S) :
    GejLimb (gejRescale a s) (gejRescale A S) := by
  have zz := hs.sqr'
  have rx := h.x.mul' zz
  have ry := (h.y.mul' zz).mul' hs
  have rz := h.z.mul' hs
  unfold gejRescale
  exact ⟨rx.mono (by omega), ry.mono (by omega), rz, h.inf⟩

theorem GejLimb.cmov (h : GejLimb a A) (g : GejLimb b B) (flag : Bool) :
    GejLimb (gejCmov a b flag) (gejCmov A B flag) := by
  have x := h.x.cmov' g.x flag
  have y := h.y.cmov' g.y flag
  have z := h.z.cmov' g.z flag
  unfold gejCmov
  exact ⟨x.mono (by omega), y.mono (by omega), z.mono (by omega), by rw [h.inf, g.inf]⟩

theorem GejLimb.eqVar (h : GejLimb a A) (g : GejLimb b B) : gejEqVar a b = gejEqVar A B := by
  have e := (h.neg.addVar g).1.inf
  unfold gejEqVar
  exact e

theorem GejLimb.eqGeVar (h : GejLimb a A) (g : GeLimb c C) : gejEqGeVar a c = gejEqGeVar A C := by
  have e := (h.neg.addGeVar g).1.inf
  unfold gejEqGeVar
  exact e

theorem GeLimb.eqVar (h : GeLimb c C) (g : GeLimb d D) : geEqVar c d = geEqVar C D := by
  have ex := h.x.weak.equal g.x
  have ey := h.y.weak.equal g.y
  unfold geEqVar
  rw [h.inf, g.inf]
  simp only [ex, ey]

theorem GejLimb.eqXVar {x : α} {X : Fp} (hx : Rep x m X) (hm : m ≤ 8) (h : GejLimb a A) :
    gejEqXVar x a = gejEqXVar X A := by
  have r := h.z.sqr'.mul' hx
  have e := r.equal h.x
  unfold gejEqXVar
  exact e

/-- What the inversion routines have to do. -/
structure LimbInvOk (α : Type) [FeOps α] [LimbRep α] : Prop where
  ok : ∀ {x : α} {v : Fp}, Rep x 8 v → Rep (FeOps.inv x) 1 (FeOps.inv v)
  okVar : ∀ {x : α} {v : Fp}, Rep x 8 v → Rep (FeOps.invVar x) 1 (FeOps.invVar v)

theorem GejLimb.ge (hi : LimbInvOk α) (h : GejLimb a A) : GeLimb (geSetGej a) (geSetGej A) := by
  have az := hi.ok (h.z.mono (by omega))
  have z2 := az.sqr'
  have z3 := az.mul' z2
  have x := h.x.mul' z2
  have y := h.y.mul' z3
  unfold geSetGej
  exact ⟨x.mono (by omega), y.mono (by omega), h.inf⟩

theorem GejLimb.geVar (hi : LimbInvOk α) (h : GejLimb a A) :
    GeLimb (geSetGejVar a) (geSetGejVar A) := by
  have az := hi.okVar (h.z.mono (by omega))
  have z2 := az.sqr'
  have z3 := az.mul' z2
  have x := h.x.mul' z2
  have y := h.y.mul' z3
  unfold geSetGejVar
  rw [h.inf]
  by_cases c1 : A.infinity = true
  · rw [if_pos c1, if_pos c1]
    exact GeLimb.infinity
  · rw [if_neg c1, if_neg c1]
    exact ⟨x.mono (by omega), y.mono (by omega), rfl⟩

end Secp.Model
