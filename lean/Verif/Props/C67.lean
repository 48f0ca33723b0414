import Verif.Proof.LimbRep10
import Verif.Props.C58
import Verif.Props.C66

/-!
# C67: point arithmetic on 32-bit targets

The point operations of `group_impl.h`, run on the 26-bit limbs of `field_10x26.h` with their 32- and
64-bit machine arithmetic, compute the group law, and their results obey again the documented
magnitudes of `group.h:49-53`: no sequence of operations can overflow.  The conversion to affine
coordinates uses the inversion of `modinv32_impl.h`.
-/

namespace Secp
open Model FeOps

variable [Fe10.LimbInv]

/-- The limbs of the Jacobian point `a` are within the bounds of group.h:51-53 and represent `P`. -/
def GejOk32 (a : Gej Fe10) (P : Pt) : Prop :=
  a.x.Mag 4 ∧ a.y.Mag 4 ∧ a.z.Mag 1 ∧
    GejRep 7 ⟨(a.x.nat : Fp), (a.y.nat : Fp), (a.z.nat : Fp), a.infinity⟩ P

/-- The limbs of the affine point `a` are within the bounds of group.h:49-50 and represent `P`. -/
def GeOk32 (a : Ge Fe10) (P : Pt) : Prop :=
  a.x.Mag 4 ∧ a.y.Mag 3 ∧ GeRep 7 ⟨(a.x.nat : Fp), (a.y.nat : Fp), a.infinity⟩ P

theorem GejOk32.limb {a : Gej Fe10} {P : Pt} (h : GejOk32 a P) :
    GejLimb a ⟨(a.x.nat : Fp), (a.y.nat : Fp), (a.z.nat : Fp), a.infinity⟩ :=
  ⟨⟨h.1, rfl⟩, ⟨h.2.1, rfl⟩, ⟨h.2.2.1, rfl⟩, rfl⟩

theorem GeOk32.limb {a : Ge Fe10} {P : Pt} (h : GeOk32 a P) :
    GeLimb a ⟨(a.x.nat : Fp), (a.y.nat : Fp), a.infinity⟩ :=
  ⟨⟨h.1, rfl⟩, ⟨h.2.1, rfl⟩, rfl⟩

theorem _root_.Secp.Model.GejLimb.ok32 {a : Gej Fe10} {A : Gej Fp} {P : Pt} (h : GejLimb a A)
    (hr : GejRep 7 A P) : GejOk32 a P := by
  obtain ⟨hx, hy, hz, hi⟩ := h
  have hx : Fe10.Rep _ _ _ := hx
  have hy : Fe10.Rep _ _ _ := hy
  have hz : Fe10.Rep _ _ _ := hz
  refine ⟨hx.mag, hy.mag, hz.mag, ?_⟩
  rw [hx.val, hy.val, hz.val, hi]
  exact hr

theorem _root_.Secp.Model.GeLimb.ok32 {a : Ge Fe10} {A : Ge Fp} {P : Pt} (h : GeLimb a A)
    (hr : GeRep 7 A P) : GeOk32 a P := by
  obtain ⟨hx, hy, hi⟩ := h
  have hx : Fe10.Rep _ _ _ := hx
  have hy : Fe10.Rep _ _ _ := hy
  refine ⟨hx.mag, hy.mag, ?_⟩
  rw [hx.val, hy.val, hi]
  exact hr

section
variable {a b : Gej Fe10} {c d : Ge Fe10} {P Q R S : Pt}

theorem C67_gej_double (ha : GejOk32 a P) : GejOk32 (gejDouble a) (P + P) :=
  ha.limb.double.ok32 (C41_gej_double ha.2.2.2)

theorem C67_gej_double_var (ha : GejOk32 a P) : GejOk32 (gejDoubleVar a).1 (P + P) :=
  ha.limb.doubleVar.1.ok32 (C41_gej_double_var ha.2.2.2)

theorem C67_gej_add_var (ha : GejOk32 a P) (hb : GejOk32 b Q) : GejOk32 (gejAddVar a b).1 (P + Q) :=
  (ha.limb.addVar hb.limb).1.ok32 (C41_gej_add_var ha.2.2.2 hb.2.2.2)

theorem C67_gej_add_ge_var (ha : GejOk32 a P) (hc : GeOk32 c Q) :
    GejOk32 (gejAddGeVar a c).1 (P + Q) :=
  (ha.limb.addGeVar hc.limb).1.ok32 (C41_gej_add_ge_var ha.2.2.2 hc.2.2)

theorem C67_gej_add_ge (ha : GejOk32 a P) (hc : GeOk32 c Q) (hQ : Q ≠ 0) :
    GejOk32 (gejAddGe a c) (P + Q) :=
  (ha.limb.addGe hc.limb).ok32 (C41_gej_add_ge ha.2.2.2 hc.2.2 hQ)

/-- `bzinv` is the inverse of the z coordinate that `c` lacks. -/
theorem C67_gej_add_zinv_var {bzinv : Fe10} (ha : GejOk32 a P) (hx : c.x.Mag 4) (hy : c.y.Mag 3)
    (hm : bzinv.Mag 1) (hz : (bzinv.nat : Fp) ≠ 0)
    (hc : GejRep 7 ⟨(c.x.nat : Fp), (c.y.nat : Fp), (bzinv.nat : Fp)⁻¹, c.infinity⟩ Q) :
    GejOk32 (gejAddZinvVar a c bzinv) (P + Q) :=
  (ha.limb.addZinvVar (C := ⟨(c.x.nat : Fp), (c.y.nat : Fp), c.infinity⟩)
    ⟨⟨hx, rfl⟩, ⟨hy, rfl⟩, rfl⟩ ⟨hm, rfl⟩).ok32 (C41_gej_add_zinv_var ha.2.2.2 hz hc)

theorem C67_neg (ha : GejOk32 a P) (hc : GeOk32 c R) : GejOk32 (gejNeg a) (-P) ∧ GeOk32 (geNeg c) (-R) :=
  ⟨ha.limb.neg.ok32 (C41_neg ha.2.2.2 hc.2.2).1, hc.limb.neg.ok32 (C41_neg ha.2.2.2 hc.2.2).2⟩

theorem C67_set_ge (hc : GeOk32 c R) : GejOk32 (gejSetGe c) R :=
  hc.limb.gej.ok32 (gejSetGe_rep hc.2.2)

theorem C67_rescale {s : Fe10} (ha : GejOk32 a P) (hs : s.Mag 1) (h0 : (s.nat : Fp) ≠ 0) :
    GejOk32 (gejRescale a s) P :=
  (ha.limb.rescale ⟨hs, rfl⟩).ok32 (gejRescale_rep ha.2.2.2 h0)

theorem C67_cmov (ha : GejOk32 a P) (hb : GejOk32 b Q) (flag : Bool) :
    GejOk32 (gejCmov a b flag) (if flag then Q else P) := by
  have h := ha.limb.cmov hb.limb flag
  refine h.ok32 ?_
  have h1 := ha.2.2.2
  have h2 := hb.2.2.2
  cases flag
  · simpa [gejCmov, FeOps.cmov] using h1
  · simpa [gejCmov, FeOps.cmov] using h2

theorem C67_ge_set_gej_of (hi : LimbInvOk Fe10) (ha : GejOk32 a P) :
    GeOk32 (geSetGej a) P ∧ GeOk32 (geSetGejVar a) P :=
  ⟨(ha.limb.ge hi).ok32 (geSetGej_rep ha.2.2.2), (ha.limb.geVar hi).ok32 (geSetGejVar_rep ha.2.2.2)⟩

/-- The comparisons decide equality of points. -/
theorem C67_eq (ha : GejOk32 a P) (hb : GejOk32 b Q) (hc : GeOk32 c R) (hd : GeOk32 d S) :
    (gejEqVar a b = true ↔ P = Q) ∧ (gejEqGeVar a c = true ↔ P = R) ∧
      (geEqVar c d = true ↔ R = S) := by
  obtain ⟨h1, h2, h3⟩ := C41_eq ha.2.2.2 hb.2.2.2 hc.2.2 hd.2.2
  rw [ha.limb.eqVar hb.limb, ha.limb.eqGeVar hc.limb, hc.limb.eqVar hd.limb]
  exact ⟨h1, h2, h3⟩

/-- `secp256k1_ge_is_valid_var` on limbs accepts exactly the points of the curve. -/
theorem C67_is_valid (hx : c.x.Mag 4) (hy : c.y.Mag 3) :
    geIsValidVar c = true ↔ ∃ P : Pt, P ≠ 0 ∧ GeOk32 c P := by
  have h : GeLimb c ⟨(c.x.nat : Fp), (c.y.nat : Fp), c.infinity⟩ := ⟨⟨hx, rfl⟩, ⟨hy, rfl⟩, rfl⟩
  rw [h.valid, C41_is_valid]
  constructor
  · rintro ⟨P, hP, hr⟩; exact ⟨P, hP, hx, hy, hr⟩
  · rintro ⟨P, hP, hr⟩; exact ⟨P, hP, hr.2.2⟩

/-- `secp256k1_fe_sqrt` on limbs: the return value tells whether the argument is a square, and if it
is, the result is a square root. -/
theorem C67_sqrt {x : Fe10} {v : Fp} (hx : x.Rep 8 v) :
    ((FeOps.sqrt x).2 = true ↔ IsSquare v) ∧
    (IsSquare v → ∃ w, (FeOps.sqrt x).1.Rep 1 w ∧ w ^ 2 = v) := by
  obtain ⟨h1, h2⟩ := LimbRep.Rep.sqrt (α := Fe10) hx
  rw [h2]
  exact ⟨sqrt_snd v, fun h => ⟨_, h1, sqrt_sq h⟩⟩

end

/-- Every program of point operations, of any length, run on limbs: at the end every register obeys
the documented bounds and represents the point that the program computes in the group. -/
theorem C67_program (tbl : ℕ → Ge Fe10) (T : ℕ → Pt) (ht : ∀ i, GeOk32 (tbl i) (T i) ∧ T i ≠ 0)
    (s : ℕ → Gej Fe10) (S : ℕ → Pt) (hs : ∀ i, GejOk32 (s i) (S i)) (prog : List PtOp) :
    ∀ i, GejOk32 (prog.foldl (PtOp.limbs tbl) s i) (prog.foldl (PtOp.points T) S i) := by
  induction prog generalizing s S with
  | nil => exact hs
  | cons op prog ih =>
    refine ih _ _ fun i => ?_
    have key : ∀ (r : ℕ) (x : Gej Fe10) (X : Pt), GejOk32 x X →
        GejOk32 (Function.update s r x i) (Function.update S r X i) := by
      intro r x X h
      by_cases e : i = r
      · subst e; rw [Function.update_self, Function.update_self]; exact h
      · rw [Function.update_of_ne e, Function.update_of_ne e]; exact hs i
    cases op with
    | double r a => exact key _ _ _ (C67_gej_double (hs a))
    | doubleVar r a => exact key _ _ _ (C67_gej_double_var (hs a))
    | add r a b => exact key _ _ _ (C67_gej_add_var (hs a) (hs b))
    | addGeVar r a c => exact key _ _ _ (C67_gej_add_ge_var (hs a) (ht c).1)
    | addGe r a c => exact key _ _ _ (C67_gej_add_ge (hs a) (ht c).1 (ht c).2)
    | neg r a => exact key _ _ _ (C67_neg (hs a) (ht 0).1).1
    | load r c => exact key _ _ _ (C67_set_ge (ht c).1)
    | cmov r a flag => exact key _ _ _ (C67_cmov (hs r) (hs a) flag)

/-! ### Conversion of points to affine coordinates -/

/-- The inversions as the point code calls them. -/
@[reducible]
def safegcdInv32 : Fe10.LimbInv :=
  ⟨fun x => (Fe10.inv? x).getD ⟨0, 0, 0, 0, 0, 0, 0, 0, 0, 0⟩,
    fun x => (Fe10.invVar? 25 x).getD ⟨0, 0, 0, 0, 0, 0, 0, 0, 0, 0⟩⟩

omit [Fe10.LimbInv] in
theorem limbInv32_of {f : Fe10 → Option Fe10} (hf : ∀ {x : Fe10} {v : Fp}, Normalizable x →
    (x.nat : Fp) = v →
    ∃ r, f x = some r ∧ r.Norm ∧ (v = 0 → r.nat = 0) ∧ (v ≠ 0 → (r.nat : Fp) * v = 1))
    {x : Fe10} {v : Fp} (hx : x.Rep 8 v) : ((f x).getD ⟨0, 0, 0, 0, 0, 0, 0, 0, 0, 0⟩).Rep 1 v⁻¹ := by
  obtain ⟨r, e, hn, h0, h1⟩ := hf (.inl (hx.mag.mono (by norm_num))) hx.val
  rw [e, Option.getD_some]
  refine ⟨hn.mag, ?_⟩
  by_cases hv : v = 0
  · rw [h0 hv, hv, inv_zero, Nat.cast_zero]
  · exact eq_inv_of_mul_eq_one_left (h1 hv)

omit [Fe10.LimbInv] in
theorem safegcdInv32_ok :
    @LimbInvOk Fe10 (@Fe10.instFeOpsFe10 safegcdInv32) (@Fe10.instLimbRep safegcdInv32) :=
  @LimbInvOk.mk _ (@Fe10.instFeOpsFe10 safegcdInv32) (@Fe10.instLimbRep safegcdInv32)
    (fun h => limbInv32_of C66_fe_inv h)
    (fun h => limbInv32_of (fun h g => C66_fe_inv_var h g (le_refl 25)) h)

omit [Fe10.LimbInv] in
/-- `secp256k1_ge_set_gej` and `secp256k1_ge_set_gej_var` with the inversions on limbs. -/
theorem C67_ge_set_gej {a : Gej Fe10} {P : Pt} (ha : GejOk32 a P) :
    GeOk32 (@geSetGej _ (@Fe10.instFeOpsFe10 safegcdInv32) a) P ∧
    GeOk32 (@geSetGejVar _ (@Fe10.instFeOpsFe10 safegcdInv32) a) P :=
  @C67_ge_set_gej_of safegcdInv32 a P safegcdInv32_ok ha

/-! ### Examples -/

/-- The 26-bit limbs of a number below `2^256`. -/
def limbsOf32 (x : ℕ) : Fe10 :=
  ⟨x % 2 ^ 26, x / 2 ^ 26 % 2 ^ 26, x / 2 ^ 52 % 2 ^ 26, x / 2 ^ 78 % 2 ^ 26, x / 2 ^ 104 % 2 ^ 26,
    x / 2 ^ 130 % 2 ^ 26, x / 2 ^ 156 % 2 ^ 26, x / 2 ^ 182 % 2 ^ 26, x / 2 ^ 208 % 2 ^ 26, x / 2 ^ 234⟩

theorem limbsOf32_rep {x : ℕ} (hx : x < 2 ^ 256) : (limbsOf32 x).Rep 1 (x : Fp) := by
  have e : (limbsOf32 x).nat = x := by
    unfold limbsOf32 Fe10.nat
    simp only
    omega
  refine ⟨?_, by rw [e]⟩
  unfold limbsOf32
  constructor <;> simp only <;> omega

theorem limbG32_ok : GeOk32 ⟨limbsOf32 gx, limbsOf32 gy, false⟩ G := by
  have hx := limbsOf32_rep (x := gx) (by unfold gx; decide)
  have hy := limbsOf32_rep (x := gy) (by unfold gy; decide)
  refine ⟨hx.mag.mono (by omega), hy.mag.mono (by omega), ?_⟩
  simp only [hx.val, hy.val]
  exact GeRep.intro rfl rfl rfl

/-- A program on limbs that passes through doubling by addition, cancellation to infinity and
addition to infinity: `r0 = G; r1 = r0 + r0; r2 = -r1; r3 = r1 + r2 (= 0); r3 = r3 + G`. -/
example (s : ℕ → Gej Fe10) (hs : ∀ i, GejOk32 (s i) 0) :
    GejOk32 ([PtOp.load 0 0, .add 1 0 0, .neg 2 1, .add 3 1 2, .addGe 3 3 0].foldl
      (PtOp.limbs fun _ => ⟨limbsOf32 gx, limbsOf32 gy, false⟩) s 3) G := by
  have h := C67_program (fun _ => ⟨limbsOf32 gx, limbsOf32 gy, false⟩) (fun _ => G)
    (fun _ => ⟨limbG32_ok, G_ne_zero⟩) s (fun _ => 0) hs
    [PtOp.load 0 0, .add 1 0 0, .neg 2 1, .add 3 1 2, .addGe 3 3 0] 3
  simpa [PtOp.points, Function.update] using h

/-- The registers can be initialised. -/
example : ∀ _ : ℕ, GejOk32 gejInfinity 0 := fun _ => GejLimb.infinity.ok32 (gejInfinity_rep _)

end Secp
