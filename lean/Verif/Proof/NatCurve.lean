import Mathlib.Data.ZMod.Basic
import Mathlib.FieldTheory.Finite.Basic
import Verif.Proof.Group

/-!
# Kernel computation on secp256k1

Runs the group formulas on natural numbers modulo `p`, so that the kernel can evaluate concrete
multiples of the generator (with its built-in bignum arithmetic); the cast to `ZMod p` is a
homomorphism for every operation.
-/

namespace Secp

open Model FeOps WeierstrassCurve

/-- Field operations on residues modulo `p`, as natural numbers. -/
@[instance_reducible] def natOps : FeOps Nat where
  setInt k := k % p
  normalizeWeak a := a
  normalize a := a % p
  normalizesToZero a := Nat.beq (a % p) 0
  negate a _ := (p - a % p) % p
  addInt a k := (a + k) % p
  mulInt a k := (a * k) % p
  add r a := (r + a) % p
  mul a b := (a * b) % p
  sqr a := (a * a) % p
  half a := (a * ((p + 1) / 2)) % p
  cmov r a flag := if flag then a else r
  inv a := powMod a (p - 2) p
  invVar a := powMod a (p - 2) p
  feConst k := k % p
  ofStorage k := k % p

/-- Evaluate `x` before continuing (`force x k = k x`). -/
def force {β : Type} (x : Nat) (k : Nat → β) : β :=
  match x with
  | 0 => k 0
  | m + 1 => k (m + 1)

theorem force_eq {β : Type} (x : Nat) (k : Nat → β) : force x k = k x := by
  cases x <;> rfl

def forceGej {β : Type} (g : Gej Nat) (k : Gej Nat → β) : β :=
  match g with
  | ⟨x, y, z, i⟩ => force x fun x => force y fun y => force z fun z =>
      match i with
      | true => k ⟨x, y, z, true⟩
      | false => k ⟨x, y, z, false⟩

theorem forceGej_eq {β : Type} (g : Gej Nat) (k : Gej Nat → β) : forceGej g k = k g := by
  cases g with | mk x y z i => cases i <;> simp [forceGej, force_eq]

/-- Left-to-right double and add: `acc·2^i + (k mod 2^i)·G`. -/
def natMul (g : Ge Nat) (k : Nat) : Nat → Gej Nat → Gej Nat
  | 0, acc => acc
  | i + 1, acc =>
    forceGej (@gejDoubleVar Nat natOps acc).1 fun d =>
      match k.testBit i with
      | true => forceGej (@gejAddGeVar Nat natOps d g).1 fun s => natMul g k i s
      | false => natMul g k i d

def natG : Ge Nat := ⟨gx, gy, false⟩
def natInf : Gej Nat := ⟨0, 0, 0, true⟩

/-! ### The cast to `ZMod p` -/

def castGej (g : Gej Nat) : Gej Fp := ⟨g.x, g.y, g.z, g.infinity⟩
def castGe (g : Ge Nat) : Ge Fp := ⟨g.x, g.y, g.infinity⟩

theorem castGej_infinity (g : Gej Nat) : (castGej g).infinity = g.infinity := rfl

theorem two_ne_zero_Fp : (2 : Fp) ≠ 0 := by
  have : ((2 : ℕ) : Fp) ≠ 0 := by
    rw [Ne, ZMod.natCast_eq_zero_iff]
    exact Nat.not_dvd_of_pos_of_lt (by decide +kernel) (by decide +kernel)
  exact_mod_cast this

theorem cast_mod_p (a : ℕ) : ((a % p : ℕ) : Fp) = a := ZMod.natCast_mod a p

theorem cast_negate (a : ℕ) : (((p - a % p) % p : ℕ) : Fp) = -(a : Fp) := by
  rw [cast_mod_p, Nat.cast_sub (Nat.mod_lt _ p_pos).le, cast_mod_p, ZMod.natCast_self, zero_sub]

theorem cast_half (a : ℕ) : ((a * ((p + 1) / 2) % p : ℕ) : Fp) = (a : Fp) / 2 := by
  rw [cast_mod_p, Nat.cast_mul, div_eq_mul_inv]
  congr 1
  rw [eq_comm, inv_eq_iff_eq_inv, eq_comm]
  apply inv_eq_of_mul_eq_one_left
  have : ((2 * ((p + 1) / 2) : ℕ) : Fp) = ((1 : ℕ) : Fp) := by
    rw [ZMod.natCast_eq_natCast_iff]
    decide +kernel
  push_cast at this
  exact this

theorem beq_zero_iff (a : ℕ) : Nat.beq (a % p) 0 = decide ((a : Fp) = 0) := by
  rw [Bool.eq_iff_iff, Nat.beq_eq, decide_eq_true_eq, ZMod.natCast_eq_zero_iff, Nat.dvd_iff_mod_eq_zero]

theorem nat_setInt (k : ℕ) : ((@setInt Nat natOps k : ℕ) : Fp) = (setInt k : Fp) := cast_mod_p k
theorem nat_negate (a m : ℕ) : ((@negate Nat natOps a m : ℕ) : Fp) = negate (a : Fp) m :=
  cast_negate a
theorem nat_mulInt (a k : ℕ) : ((@mulInt Nat natOps a k : ℕ) : Fp) = mulInt (a : Fp) k :=
  (cast_mod_p _).trans (Nat.cast_mul _ _)
theorem nat_add (a b : ℕ) : ((@add Nat natOps a b : ℕ) : Fp) = add (a : Fp) b :=
  (cast_mod_p _).trans (Nat.cast_add _ _)
theorem nat_mul (a b : ℕ) : ((@mul Nat natOps a b : ℕ) : Fp) = mul (a : Fp) b :=
  (cast_mod_p _).trans (Nat.cast_mul _ _)
theorem nat_sqr (a : ℕ) : ((@sqr Nat natOps a : ℕ) : Fp) = sqr (a : Fp) :=
  (cast_mod_p _).trans (Nat.cast_mul _ _)
theorem nat_half (a : ℕ) : ((@half Nat natOps a : ℕ) : Fp) = half (a : Fp) := cast_half a
theorem nat_isZero (a : ℕ) : @normalizesToZero Nat natOps a = normalizesToZero (a : Fp) :=
  beq_zero_iff a

theorem castGej_double (a : Gej Nat) :
    castGej (@gejDouble Nat natOps a) = gejDouble (castGej a) := by
  unfold castGej gejDouble
  dsimp only
  simp only [nat_negate, nat_mulInt, nat_add, nat_mul, nat_sqr, nat_half]

theorem castGej_inf : castGej (@gejInfinity Nat natOps) = gejInfinity := by
  simp only [castGej, gejInfinity, nat_setInt]

theorem castGej_doubleVar (a : Gej Nat) :
    castGej (@gejDoubleVar Nat natOps a).1 = (gejDoubleVar (castGej a)).1 := by
  simp only [gejDoubleVar]
  have : (castGej a).infinity = a.infinity := rfl
  rw [this]
  split
  · exact castGej_inf
  · exact castGej_double a

theorem castGej_addGe (a : Gej Nat) (b : Ge Nat) :
    castGej (@gejAddGeVar Nat natOps a b).1 = (gejAddGeVar (castGej a) (castGe b)).1 := by
  have e1 : (castGej a).infinity = a.infinity := rfl
  have e2 : (castGe b).infinity = b.infinity := rfl
  simp only [gejAddGeVar, e1, e2]
  split
  · simp only [castGej, castGe, gejSetGe, nat_setInt]
  split
  · rfl
  have ex : (castGej a).x = (a.x : Fp) := rfl
  have ey : (castGej a).y = (a.y : Fp) := rfl
  have ez : (castGej a).z = (a.z : Fp) := rfl
  have fx : (castGe b).x = (b.x : Fp) := rfl
  have fy : (castGe b).y = (b.y : Fp) := rfl
  simp only [ex, ey, ez, fx, fy, nat_isZero, nat_negate, nat_add, nat_mul, nat_sqr]
  split
  · split
    · exact castGej_doubleVar a
    · exact castGej_inf
  · unfold castGej
    dsimp only
    simp only [nat_negate, nat_add, nat_mul, nat_sqr]

theorem powMod_of_pow_eq_one (a e : ℕ) (he : e < 2 ^ 520) (h : (a : Fp) ^ e = 1) :
    powMod a e p = 1 % p := by
  have h4 : ((a ^ e : ℕ) : Fp) = ((1 : ℕ) : Fp) := by push_cast; exact h
  rw [ZMod.natCast_eq_natCast_iff'] at h4
  rw [powMod_eq _ _ _ he, h4]

/-! ### `-7` is not a cube: no point of order two -/

theorem neg7_not_cube : NoTwoTorsion (7 : Fp) := by
  refine ⟨two_ne_zero_Fp, fun x hx => ?_⟩
  have h0 : x ≠ 0 := by
    rintro rfl
    have : ((7 : ℕ) : Fp) ≠ 0 := by
      rw [Ne, ZMod.natCast_eq_zero_iff]
      exact Nat.not_dvd_of_pos_of_lt (by decide +kernel) (by decide +kernel)
    apply this
    simpa using hx
  have h3 : x ^ 3 = ((p - 7 : ℕ) : Fp) := by
    rw [Nat.cast_sub (by decide +kernel), ZMod.natCast_self]
    push_cast
    linear_combination hx
  have h1 : x ^ (p - 1) = 1 := ZMod.pow_card_sub_one_eq_one h0
  have h2 : ((p - 7 : ℕ) : Fp) ^ ((p - 1) / 3) = 1 := by
    rw [← h3, ← pow_mul, show 3 * ((p - 1) / 3) = p - 1 by decide +kernel, h1]
  have h4 := powMod_of_pow_eq_one (p - 7) ((p - 1) / 3) (by decide +kernel) h2
  revert h4
  decide +kernel

/-! ### Multiples of the generator -/

theorem G_eq : ((gy : ℕ) : Fp) ^ 2 = ((gx : ℕ) : Fp) ^ 3 + 7 := by
  have : ((gy ^ 2 : ℕ) : Fp) = ((gx ^ 3 + 7 : ℕ) : Fp) := by
    rw [ZMod.natCast_eq_natCast_iff']
    decide +kernel
  push_cast at this
  exact this

theorem G_nonsingular : E.Nonsingular ((gx : ℕ) : Fp) ((gy : ℕ) : Fp) :=
  neg7_not_cube.nonsingular G_eq

/-- The generator of secp256k1 (SEC 2, section 2.4.1). -/
def G : Pt := .some _ _ G_nonsingular

theorem natG_rep : GeRep (7 : Fp) (castGe natG) G :=
  GeRep.intro rfl rfl rfl

theorem natMul_rep {g : Ge Nat} {P : Pt} (hg : GeRep (7 : Fp) (castGe g) P) (k : ℕ) :
    ∀ (i : ℕ) (acc : Gej Nat) (Q : Pt), GejRep (7 : Fp) (castGej acc) Q →
      GejRep (7 : Fp) (castGej (natMul g k i acc)) (2 ^ i • Q + (k % 2 ^ i) • P)
  | 0, acc, Q, h => by simpa [natMul, Nat.mod_one] using h
  | i + 1, acc, Q, h => by
    have hd := gejDoubleVar_rep neg7_not_cube h
    rw [← castGej_doubleVar] at hd
    unfold natMul
    rw [forceGej_eq]
    have hm : k % 2 ^ (i + 1) = k % 2 ^ i + 2 ^ i * (k.testBit i).toNat := by
      rw [Nat.mod_pow_succ, Nat.toNat_testBit]
    cases hb : k.testBit i
    · have := natMul_rep hg k i _ _ hd
      simp only
      convert this using 1
      rw [hm, hb, ← two_nsmul, ← mul_nsmul, pow_succ']
      simp
    · have ha := gejAddGeVar_rep neg7_not_cube hd hg
      rw [← castGej_addGe] at ha
      have := natMul_rep hg k i _ _ ha
      simp only [forceGej_eq]
      convert this using 1
      rw [hm, hb, ← two_nsmul]
      simp only [Bool.toNat_true, mul_one, add_nsmul, nsmul_add, ← mul_nsmul, pow_succ']
      abel

theorem natMulG_rep (k : ℕ) (hk : k < 2 ^ 256) :
    GejRep (7 : Fp) (castGej (natMul natG k 256 natInf)) (k • G) := by
  have := natMul_rep natG_rep k 256 natInf 0 (.of_inf rfl)
  rw [Nat.mod_eq_of_lt hk] at this
  simpa using this

attribute [irreducible] natMul

theorem n_smul_G : n • G = 0 := by
  have h : n < 2 ^ 256 := by decide +kernel
  have hi : (natMul natG n 256 natInf).infinity = true := by decide +kernel
  have h0 := natMulG_rep n h
  generalize natMul natG n 256 natInf = g at h0 hi
  exact h0.inf_iff.1 hi

theorem G_ne_zero : G ≠ 0 := Affine.Point.some_ne_zero _

end Secp
