import Verif.Proof.LimbRep5
import Verif.Props.C41
import Verif.Proof.Sqrt

/-!
# C58: point arithmetic on machine words

The point operations of `group_impl.h`, run on the 52-bit limbs of `field_5x52.h` with their 64- and
128-bit machine arithmetic, compute the group law, and their results obey again the documented
magnitudes of `group.h:49-53`: no sequence of operations can overflow.
-/

namespace Secp
open Model FeOps Fe5

variable [LimbInv]

/-- The limbs of the Jacobian point `a` are within the bounds of group.h:51-53 and represent `P`. -/
def GejOk (a : Gej Fe5) (P : Pt) : Prop :=
  a.x.Mag 4 ∧ a.y.Mag 4 ∧ a.z.Mag 1 ∧
    GejRep 7 ⟨(a.x.nat : Fp), (a.y.nat : Fp), (a.z.nat : Fp), a.infinity⟩ P

/-- The limbs of the affine point `a` are within the bounds of group.h:49-50 and represent `P`. -/
def GeOk (a : Ge Fe5) (P : Pt) : Prop :=
  a.x.Mag 4 ∧ a.y.Mag 3 ∧ GeRep 7 ⟨(a.x.nat : Fp), (a.y.nat : Fp), a.infinity⟩ P

theorem GejOk.limb {a : Gej Fe5} {P : Pt} (h : GejOk a P) :
    GejLimb a ⟨(a.x.nat : Fp), (a.y.nat : Fp), (a.z.nat : Fp), a.infinity⟩ :=
  ⟨⟨h.1, rfl⟩, ⟨h.2.1, rfl⟩, ⟨h.2.2.1, rfl⟩, rfl⟩

theorem GeOk.limb {a : Ge Fe5} {P : Pt} (h : GeOk a P) :
    GeLimb a ⟨(a.x.nat : Fp), (a.y.nat : Fp), a.infinity⟩ :=
  ⟨⟨h.1, rfl⟩, ⟨h.2.1, rfl⟩, rfl⟩

theorem _root_.Secp.Model.GejLimb.ok {a : Gej Fe5} {A : Gej Fp} {P : Pt} (h : GejLimb a A)
    (hr : GejRep 7 A P) : GejOk a P := by
  obtain ⟨hx, hy, hz, hi⟩ := h
  have hx : Fe5.Rep _ _ _ := hx
  have hy : Fe5.Rep _ _ _ := hy
  have hz : Fe5.Rep _ _ _ := hz
  refine ⟨hx.mag, hy.mag, hz.mag, ?_⟩
  rw [hx.val, hy.val, hz.val, hi]
  exact hr

theorem _root_.Secp.Model.GeLimb.ok {a : Ge Fe5} {A : Ge Fp} {P : Pt} (h : GeLimb a A)
    (hr : GeRep 7 A P) : GeOk a P := by
  obtain ⟨hx, hy, hi⟩ := h
  have hx : Fe5.Rep _ _ _ := hx
  have hy : Fe5.Rep _ _ _ := hy
  refine ⟨hx.mag, hy.mag, ?_⟩
  rw [hx.val, hy.val, hi]
  exact hr

section
variable {a b : Gej Fe5} {c d : Ge Fe5} {P Q R S : Pt}

theorem C58_gej_double (ha : GejOk a P) : GejOk (gejDouble a) (P + P) :=
  ha.limb.double.ok (C41_gej_double ha.2.2.2)

theorem C58_gej_double_var (ha : GejOk a P) : GejOk (gejDoubleVar a).1 (P + P) :=
  ha.limb.doubleVar.1.ok (C41_gej_double_var ha.2.2.2)

theorem C58_gej_add_var (ha : GejOk a P) (hb : GejOk b Q) : GejOk (gejAddVar a b).1 (P + Q) :=
  (ha.limb.addVar hb.limb).1.ok (C41_gej_add_var ha.2.2.2 hb.2.2.2)

theorem C58_gej_add_ge_var (ha : GejOk a P) (hc : GeOk c Q) :
    GejOk (gejAddGeVar a c).1 (P + Q) :=
  (ha.limb.addGeVar hc.limb).1.ok (C41_gej_add_ge_var ha.2.2.2 hc.2.2)

theorem C58_gej_add_ge (ha : GejOk a P) (hc : GeOk c Q) (hQ : Q ≠ 0) :
    GejOk (gejAddGe a c) (P + Q) :=
  (ha.limb.addGe hc.limb).ok (C41_gej_add_ge ha.2.2.2 hc.2.2 hQ)

/-- `bzinv` is the inverse of the z coordinate that `c` lacks. -/
theorem C58_gej_add_zinv_var {bzinv : Fe5} (ha : GejOk a P) (hx : c.x.Mag 4) (hy : c.y.Mag 3)
    (hm : bzinv.Mag 1) (hz : (bzinv.nat : Fp) ≠ 0)
    (hc : GejRep 7 ⟨(c.x.nat : Fp), (c.y.nat : Fp), (bzinv.nat : Fp)⁻¹, c.infinity⟩ Q) :
    GejOk (gejAddZinvVar a c bzinv) (P + Q) :=
  (ha.limb.addZinvVar (C := ⟨(c.x.nat : Fp), (c.y.nat : Fp), c.infinity⟩)
    ⟨⟨hx, rfl⟩, ⟨hy, rfl⟩, rfl⟩ ⟨hm, rfl⟩).ok (C41_gej_add_zinv_var ha.2.2.2 hz hc)

theorem C58_neg (ha : GejOk a P) (hc : GeOk c R) : GejOk (gejNeg a) (-P) ∧ GeOk (geNeg c) (-R) :=
  ⟨ha.limb.neg.ok (C41_neg ha.2.2.2 hc.2.2).1, hc.limb.neg.ok (C41_neg ha.2.2.2 hc.2.2).2⟩

theorem C58_set_ge (hc : GeOk c R) : GejOk (gejSetGe c) R :=
  hc.limb.gej.ok (gejSetGe_rep hc.2.2)

theorem C58_rescale {s : Fe5} (ha : GejOk a P) (hs : s.Mag 1) (h0 : (s.nat : Fp) ≠ 0) :
    GejOk (gejRescale a s) P :=
  (ha.limb.rescale ⟨hs, rfl⟩).ok (gejRescale_rep ha.2.2.2 h0)

theorem C58_cmov (ha : GejOk a P) (hb : GejOk b Q) (flag : Bool) :
    GejOk (gejCmov a b flag) (if flag then Q else P) := by
  have h := ha.limb.cmov hb.limb flag
  refine h.ok ?_
  have h1 := ha.2.2.2
  have h2 := hb.2.2.2
  cases flag
  · simpa [gejCmov, FeOps.cmov] using h1
  · simpa [gejCmov, FeOps.cmov] using h2

/-- Conversion to affine coordinates, with any correct inversion routine. -/
theorem C58_ge_set_gej (hi : LimbInvOk Fe5) (ha : GejOk a P) :
    GeOk (geSetGej a) P ∧ GeOk (geSetGejVar a) P :=
  ⟨(ha.limb.ge hi).ok (geSetGej_rep ha.2.2.2), (ha.limb.geVar hi).ok (geSetGejVar_rep ha.2.2.2)⟩

/-- The comparisons decide equality of points. -/
theorem C58_eq (ha : GejOk a P) (hb : GejOk b Q) (hc : GeOk c R) (hd : GeOk d S) :
    (gejEqVar a b = true ↔ P = Q) ∧ (gejEqGeVar a c = true ↔ P = R) ∧
      (geEqVar c d = true ↔ R = S) := by
  obtain ⟨h1, h2, h3⟩ := C41_eq ha.2.2.2 hb.2.2.2 hc.2.2 hd.2.2
  rw [ha.limb.eqVar hb.limb, ha.limb.eqGeVar hc.limb, hc.limb.eqVar hd.limb]
  exact ⟨h1, h2, h3⟩

/-- `secp256k1_ge_is_valid_var` on limbs accepts exactly the points of the curve. -/
theorem C58_is_valid (hx : c.x.Mag 4) (hy : c.y.Mag 3) :
    geIsValidVar c = true ↔ ∃ P : Pt, P ≠ 0 ∧ GeOk c P := by
  have h : GeLimb c ⟨(c.x.nat : Fp), (c.y.nat : Fp), c.infinity⟩ := ⟨⟨hx, rfl⟩, ⟨hy, rfl⟩, rfl⟩
  rw [h.valid, C41_is_valid]
  constructor
  · rintro ⟨P, hP, hr⟩; exact ⟨P, hP, hx, hy, hr⟩
  · rintro ⟨P, hP, hr⟩; exact ⟨P, hP, hr.2.2⟩

/-- `secp256k1_fe_sqrt` on limbs: the return value tells whether the argument is a square, and if it
is, the result is a square root. -/
theorem C58_sqrt {x : Fe5} {v : Fp} (hx : x.Rep 8 v) :
    ((FeOps.sqrt x).2 = true ↔ IsSquare v) ∧
    (IsSquare v → ∃ w, (FeOps.sqrt x).1.Rep 1 w ∧ w ^ 2 = v) := by
  obtain ⟨h1, h2⟩ := LimbRep.Rep.sqrt (α := Fe5) hx
  rw [h2]
  exact ⟨sqrt_snd v, fun h => ⟨_, h1, sqrt_sq h⟩⟩

end

/-- An instruction on point registers: the destination comes first, `c` is a table of affine
points. -/
inductive PtOp
  | double (r a : ℕ)
  | doubleVar (r a : ℕ)
  | add (r a b : ℕ)
  | addGeVar (r a c : ℕ)
  | addGe (r a c : ℕ)
  | neg (r a : ℕ)
  | load (r c : ℕ)
  | cmov (r a : ℕ) (flag : Bool)

/-- What an instruction does on the limbs of a field implementation. -/
def PtOp.limbs {α : Type} [FeOps α] (tbl : ℕ → Ge α) (s : ℕ → Gej α) : PtOp → ℕ → Gej α
  | .double r a => Function.update s r (gejDouble (s a))
  | .doubleVar r a => Function.update s r (gejDoubleVar (s a)).1
  | .add r a b => Function.update s r (gejAddVar (s a) (s b)).1
  | .addGeVar r a c => Function.update s r (gejAddGeVar (s a) (tbl c)).1
  | .addGe r a c => Function.update s r (gejAddGe (s a) (tbl c))
  | .neg r a => Function.update s r (gejNeg (s a))
  | .load r c => Function.update s r (gejSetGe (tbl c))
  | .cmov r a flag => Function.update s r (gejCmov (s r) (s a) flag)

/-- What the instruction means in the group. -/
def PtOp.points (tbl s : ℕ → Pt) : PtOp → ℕ → Pt
  | .double r a => Function.update s r (s a + s a)
  | .doubleVar r a => Function.update s r (s a + s a)
  | .add r a b => Function.update s r (s a + s b)
  | .addGeVar r a c => Function.update s r (s a + tbl c)
  | .addGe r a c => Function.update s r (s a + tbl c)
  | .neg r a => Function.update s r (-s a)
  | .load r c => Function.update s r (tbl c)
  | .cmov r a flag => Function.update s r (if flag then s a else s r)

/-- Every program of point operations, of any length, run on limbs: at the end every register obeys
the documented bounds and represents the point that the program computes in the group. -/
theorem C58_program (tbl : ℕ → Ge Fe5) (T : ℕ → Pt) (ht : ∀ i, GeOk (tbl i) (T i) ∧ T i ≠ 0)
    (s : ℕ → Gej Fe5) (S : ℕ → Pt) (hs : ∀ i, GejOk (s i) (S i)) (prog : List PtOp) :
    ∀ i, GejOk (prog.foldl (PtOp.limbs tbl) s i) (prog.foldl (PtOp.points T) S i) := by
  induction prog generalizing s S with
  | nil => exact hs
  | cons op prog ih =>
    refine ih _ _ fun i => ?_
    have key : ∀ (r : ℕ) (x : Gej Fe5) (X : Pt), GejOk x X →
        GejOk (Function.update s r x i) (Function.update S r X i) := by
      intro r x X h
      by_cases e : i = r
      · subst e; rw [Function.update_self, Function.update_self]; exact h
      · rw [Function.update_of_ne e, Function.update_of_ne e]; exact hs i
    cases op with
    | double r a => exact key _ _ _ (C58_gej_double (hs a))
    | doubleVar r a => exact key _ _ _ (C58_gej_double_var (hs a))
    | add r a b => exact key _ _ _ (C58_gej_add_var (hs a) (hs b))
    | addGeVar r a c => exact key _ _ _ (C58_gej_add_ge_var (hs a) (ht c).1)
    | addGe r a c => exact key _ _ _ (C58_gej_add_ge (hs a) (ht c).1 (ht c).2)
    | neg r a => exact key _ _ _ (C58_neg (hs a) (ht 0).1).1
    | load r c => exact key _ _ _ (C58_set_ge (ht c).1)
    | cmov r a flag => exact key _ _ _ (C58_cmov (hs r) (hs a) flag)

/-- The limbs of a number below `2^256`. -/
def limbsOf (x : ℕ) : Fe5 :=
  ⟨x % 2 ^ 52, x / 2 ^ 52 % 2 ^ 52, x / 2 ^ 104 % 2 ^ 52, x / 2 ^ 156 % 2 ^ 52, x / 2 ^ 208⟩

theorem limbsOf_rep {x : ℕ} (hx : x < 2 ^ 256) : (limbsOf x).Rep 1 (x : Fp) := by
  have e : (limbsOf x).nat = x := by
    unfold limbsOf Fe5.nat
    simp only
    omega
  refine ⟨?_, by rw [e]⟩
  unfold limbsOf
  constructor <;> simp only <;> omega

theorem limbG_ok : GeOk ⟨limbsOf gx, limbsOf gy, false⟩ G := by
  have hx := limbsOf_rep (x := gx) (by unfold gx; decide)
  have hy := limbsOf_rep (x := gy) (by unfold gy; decide)
  refine ⟨hx.mag.mono (by omega), hy.mag.mono (by omega), ?_⟩
  simp only [hx.val, hy.val]
  exact GeRep.intro rfl rfl rfl

/-- A program on limbs that passes through doubling by addition, cancellation to infinity and
addition to infinity: `r0 = G; r1 = r0 + r0; r2 = -r1; r3 = r1 + r2 (= 0); r3 = r3 + G`. -/
example (s : ℕ → Gej Fe5) (hs : ∀ i, GejOk (s i) 0) :
    GejOk ([PtOp.load 0 0, .add 1 0 0, .neg 2 1, .add 3 1 2, .addGe 3 3 0].foldl
      (PtOp.limbs fun _ => ⟨limbsOf gx, limbsOf gy, false⟩) s 3) G := by
  have h := C58_program (fun _ => ⟨limbsOf gx, limbsOf gy, false⟩) (fun _ => G)
    (fun _ => ⟨limbG_ok, G_ne_zero⟩) s (fun _ => 0) hs
    [PtOp.load 0 0, .add 1 0 0, .neg 2 1, .add 3 1 2, .addGe 3 3 0] 3
  simpa [PtOp.points, Function.update] using h

/-- The registers can be initialised. -/
example : ∀ _ : ℕ, GejOk gejInfinity 0 := fun _ => GejLimb.infinity.ok (gejInfinity_rep _)

end Secp
