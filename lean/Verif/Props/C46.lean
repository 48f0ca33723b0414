import Verif.Proof.Modinv64Conv
import Verif.Props.C58

/-!
# C46: the safegcd inversion

For every input the inversion of field elements and of scalars, in its constant-time and in its
variable-time variant, returns (no signed arithmetic overflows, no shift is out of range, the
unbounded loop of the variable-time variant ends) and the result is the inverse, or 0 for 0.

`none` in the model stands for undefined behaviour and, for the variable-time variant, for running
out of the `fuel` iterations the model grants to `while (1)`.
-/

namespace Secp
open Model

/-- `secp256k1_modinv64` (modinv64.h:32-39), for every modulus the interface admits and every `x` in
`[0, modulus)` coprime to it, or zero. -/
theorem C46_modinv64 {M : Modinfo} {m : ℤ} (hM : M.Ok m) {x : S62} (hx : x.Canon) (hlt : x.int < m) :
    ∃ r, modinv64 x M = some r ∧ r.Canon ∧ r.int < m ∧ (x.int = 0 → r.int = 0) ∧
      (IsCoprime x.int m → r.int * x.int % m = 1) := by
  obtain ⟨r, h1, h2, h3, h4, h5, h6⟩ := modinv64_spec hM hx hlt
  refine ⟨r, h1, h2, h4, h5, fun h => ?_⟩
  have := h6 h
  have hm := hM.ge
  rwa [Int.ModEq, Int.emod_eq_of_lt (by omega) (by omega : (1 : ℤ) < m)] at this

/-- `secp256k1_modinv64_var` (modinv64.h:41-43): the same, and its loop ends within 12 iterations. -/
theorem C46_modinv64_var {M : Modinfo} {m : ℤ} (hM : M.Ok m) {x : S62} (hx : x.Canon)
    (hlt : x.int < m) {fuel : ℕ} (hf : 12 ≤ fuel) :
    ∃ r, modinv64Var fuel x M = some r ∧ r.Canon ∧ r.int < m ∧ (x.int = 0 → r.int = 0) ∧
      (IsCoprime x.int m → r.int * x.int % m = 1) := by
  obtain ⟨r, h1, h2, h3, h4, h5, h6⟩ := modinv64Var_spec hM hx hlt hf
  refine ⟨r, h1, h2, h4, h5, fun h => ?_⟩
  have := h6 h
  have hm := hM.ge
  rwa [Int.ModEq, Int.emod_eq_of_lt (by omega) (by omega : (1 : ℤ) < m)] at this

/-- The constants `secp256k1_const_modinfo_fe` and `secp256k1_const_modinfo_scalar` describe `p` and
`n`. -/
theorem C46_modinfo : modinfoFe.Ok (p : ℤ) ∧ modinfoScalar.Ok (n : ℤ) :=
  ⟨modinfoFe_ok, modinfoScalar_ok⟩

theorem coprime_of_prime {q k : ℕ} (hq : q.Prime) (h0 : k ≠ 0) (hlt : k < q) :
    IsCoprime (k : ℤ) (q : ℤ) := by
  rw [Nat.isCoprime_iff_coprime]
  exact (Nat.coprime_of_lt_prime h0 hlt hq).symm

/-- The result of an inversion on limbs. -/
theorem inverse_value {q a b : ℕ} (hq : q.Prime) (ha : a < q)
    (h0 : (a : ℤ) = 0 → (b : ℤ) = 0) (h1 : IsCoprime (a : ℤ) (q : ℤ) → (b : ℤ) * a % q = 1) :
    (a = 0 → b = 0) ∧ (a ≠ 0 → (b : ZMod q) * (a : ZMod q) = 1) := by
  refine ⟨fun h => by exact_mod_cast h0 (by exact_mod_cast h), fun h => ?_⟩
  have h2 := h1 (coprime_of_prime hq h ha)
  have h3 : b * a % q = 1 := by exact_mod_cast h2
  have h4 : ((b * a : ℕ) : ZMod q) = ((1 : ℕ) : ZMod q) := by
    rw [ZMod.natCast_eq_natCast_iff', h3, Nat.mod_eq_of_lt hq.one_lt]
  push_cast at h4
  exact h4

theorem Fe5.inv_of {x : Fe5} {v : Fp} (hx : x.Rep 32 v) {f : S62 → Option S62}
    (hf : ∀ {y : S62}, y.Canon → y.int < p → ∃ r, f y = some r ∧ r.Canon ∧ r.int < p ∧
      (y.int = 0 → r.int = 0) ∧ (IsCoprime y.int p → r.int * y.int % p = 1)) :
    ∃ r, (f (Fe5.toSigned62 (Fe5.normalize x))).bind (fun s => some (Fe5.fromSigned62 s)) = some r ∧
      r.Norm ∧ (v = 0 → r.nat = 0) ∧ (v ≠ 0 → (r.nat : Fp) * v = 1) := by
  obtain ⟨hn, hv⟩ := Fe5.normalize_spec hx.mag
  obtain ⟨c1, c2⟩ := Fe5.toSigned62_spec hn
  have hlt : (Fe5.normalize x).nat < p := hn.lt
  obtain ⟨s, e, s1, s2, s3, s4⟩ := hf c1 (by rw [c2]; exact_mod_cast hlt)
  obtain ⟨f1, f2⟩ := Fe5.fromSigned62_spec s1 s2
  rw [c2] at s3 s4
  rw [← f2] at s3 s4
  obtain ⟨i1, i2⟩ := inverse_value p_prime hlt s3 s4
  have hvn : ((Fe5.normalize x).nat : Fp) = v := by
    rw [hv, ← hx.val, ZMod.natCast_mod]
  have hz : v = 0 ↔ (Fe5.normalize x).nat = 0 := by
    rw [← hvn, ZMod.natCast_eq_zero_iff]
    constructor
    · exact fun h => Nat.eq_zero_of_dvd_of_lt h hlt
    · rintro h; rw [h]; exact Nat.dvd_zero _
  refine ⟨_, by rw [e]; rfl, f1, fun h => i1 (hz.mp h), fun h => ?_⟩
  rw [← hvn]
  exact i2 (fun h0 => h (hz.mpr h0))

/-- `secp256k1_fe_inv` (field.h:244-247): for every field element, of any magnitude up to 32. -/
theorem C46_fe_inv {x : Fe5} {v : Fp} (hx : x.Rep 32 v) :
    ∃ r, Fe5.inv? x = some r ∧ r.Norm ∧ (v = 0 → r.nat = 0) ∧ (v ≠ 0 → (r.nat : Fp) * v = 1) :=
  Fe5.inv_of hx (f := fun s => modinv64 s modinfoFe) (C46_modinv64 modinfoFe_ok)

/-- `secp256k1_fe_inv_var` (field.h:249-250). -/
theorem C46_fe_inv_var {x : Fe5} {v : Fp} (hx : x.Rep 32 v) {fuel : ℕ} (hf : 12 ≤ fuel) :
    ∃ r, Fe5.invVar? fuel x = some r ∧ r.Norm ∧ (v = 0 → r.nat = 0) ∧
      (v ≠ 0 → (r.nat : Fp) * v = 1) := by
  unfold Fe5.invVar?
  rw [Fe5.normalizeVar_eq hx.mag]
  exact Fe5.inv_of hx (f := fun s => modinv64Var fuel s modinfoFe)
    (fun h1 h2 => C46_modinv64_var modinfoFe_ok h1 h2 hf)

theorem Sc4.inverse_of {x : Sc4} {v : Fn} (hx : x.Rep v) {f : S62 → Option S62}
    (hf : ∀ {y : S62}, y.Canon → y.int < n → ∃ r, f y = some r ∧ r.Canon ∧ r.int < n ∧
      (y.int = 0 → r.int = 0) ∧ (IsCoprime y.int n → r.int * y.int % n = 1)) :
    ∃ r w, (f (Sc4.toSigned62 x)).bind (fun s => some (Sc4.fromSigned62 s)) = some r ∧
      r.Rep w ∧ (v = 0 → w = 0) ∧ (v ≠ 0 → w * v = 1) := by
  obtain ⟨c1, c2⟩ := Sc4.toSigned62_spec hx.words
  have hlt : x.nat < n := by rw [hx.val]; exact ZMod.val_lt v
  obtain ⟨s, e, s1, s2, s3, s4⟩ := hf c1 (by rw [c2]; exact_mod_cast hlt)
  have hn : (n : ℤ) < 2 ^ 256 := by unfold n; decide
  obtain ⟨f1, f2⟩ := Sc4.fromSigned62_spec s1 (by omega)
  rw [c2] at s3 s4
  rw [← f2] at s2 s3 s4
  obtain ⟨i1, i2⟩ := inverse_value n_prime hlt s3 s4
  have hvn : (x.nat : Fn) = v := by rw [hx.val, ZMod.natCast_zmod_val]
  have hz : v = 0 ↔ x.nat = 0 := by rw [hx.val, ZMod.val_eq_zero]
  refine ⟨_, ((Sc4.fromSigned62 s).nat : Fn), by rw [e]; rfl, ⟨f1, ?_⟩, fun h => ?_, fun h => ?_⟩
  · rw [ZMod.val_natCast, Nat.mod_eq_of_lt (by exact_mod_cast s2)]
  · rw [i1 (hz.mp h), Nat.cast_zero]
  · rw [← hvn]
    exact i2 (fun h0 => h (hz.mpr h0))

/-- `secp256k1_scalar_inverse` (scalar.h:70-71). -/
theorem C46_scalar_inverse {x : Sc4} {v : Fn} (hx : x.Rep v) :
    ∃ r w, Sc4.inverse? x = some r ∧ r.Rep w ∧ (v = 0 → w = 0) ∧ (v ≠ 0 → w * v = 1) :=
  Sc4.inverse_of hx (f := fun s => modinv64 s modinfoScalar) (C46_modinv64 modinfoScalar_ok)

/-- `secp256k1_scalar_inverse_var` (scalar.h:73-74). -/
theorem C46_scalar_inverse_var {x : Sc4} {v : Fn} (hx : x.Rep v) {fuel : ℕ} (hf : 12 ≤ fuel) :
    ∃ r w, Sc4.inverseVar? fuel x = some r ∧ r.Rep w ∧ (v = 0 → w = 0) ∧ (v ≠ 0 → w * v = 1) :=
  Sc4.inverse_of hx (f := fun s => modinv64Var fuel s modinfoScalar)
    (fun h1 h2 => C46_modinv64_var modinfoScalar_ok h1 h2 hf)

/-! ### Conversion of points to affine coordinates -/

/-- The inversions as the point code calls them. -/
@[reducible]
def safegcdInv : Fe5.LimbInv :=
  ⟨fun x => (Fe5.inv? x).getD ⟨0, 0, 0, 0, 0⟩, fun x => (Fe5.invVar? 12 x).getD ⟨0, 0, 0, 0, 0⟩⟩

theorem limbInv_of {f : Fe5 → Option Fe5} (hf : ∀ {x : Fe5} {v : Fp}, x.Rep 32 v →
    ∃ r, f x = some r ∧ r.Norm ∧ (v = 0 → r.nat = 0) ∧ (v ≠ 0 → (r.nat : Fp) * v = 1))
    {x : Fe5} {v : Fp} (hx : x.Rep 8 v) : ((f x).getD ⟨0, 0, 0, 0, 0⟩).Rep 1 v⁻¹ := by
  obtain ⟨r, e, hn, h0, h1⟩ := hf ⟨hx.mag.mono (by norm_num), hx.val⟩
  rw [e, Option.getD_some]
  refine ⟨hn.mag, ?_⟩
  by_cases hv : v = 0
  · rw [h0 hv, hv, inv_zero, Nat.cast_zero]
  · exact eq_inv_of_mul_eq_one_left (h1 hv)

theorem safegcdInv_ok : @LimbInvOk Fe5 (@Fe5.instFeOpsFe5 safegcdInv) (@Fe5.instLimbRep safegcdInv) :=
  @LimbInvOk.mk _ (@Fe5.instFeOpsFe5 safegcdInv) (@Fe5.instLimbRep safegcdInv)
    (fun h => limbInv_of C46_fe_inv h) (fun h => limbInv_of (fun h => C46_fe_inv_var h (le_refl 12)) h)

/-- `secp256k1_ge_set_gej` and `secp256k1_ge_set_gej_var` with the inversions on limbs: nothing is
assumed about the inversion any more. -/
theorem C46_ge_set_gej {a : Gej Fe5} {P : Pt} (ha : GejOk a P) :
    GeOk (@geSetGej _ (@Fe5.instFeOpsFe5 safegcdInv) a) P ∧
    GeOk (@geSetGejVar _ (@Fe5.instFeOpsFe5 safegcdInv) a) P :=
  @C58_ge_set_gej safegcdInv a P safegcdInv_ok ha

/-! ### Examples -/

/-- The hypotheses of `C46_fe_inv` and `C46_fe_inv_var` hold for the largest limbs of magnitude 8. -/
example : maxFe8.Rep 32 (maxFe8.nat : Fp) ∧
    (Fe5.inv? maxFe8).map (fun r => r.nat * maxFe8.nat % p) = some 1 ∧
    Fe5.invVar? 12 maxFe8 = Fe5.inv? maxFe8 :=
  ⟨@Fe5.Rep.mono safegcdInv _ _ _ _ maxFe8_rep (by norm_num), by decide +kernel, by decide +kernel⟩

/-- Scalars: the inverse of `n - 1` is itself. -/
example : Sc4.inverse? ⟨0xBFD25E8CD0364140, 0xBAAEDCE6AF48A03B, 0xFFFFFFFFFFFFFFFE, 0xFFFFFFFFFFFFFFFF⟩ =
    some ⟨0xBFD25E8CD0364140, 0xBAAEDCE6AF48A03B, 0xFFFFFFFFFFFFFFFE, 0xFFFFFFFFFFFFFFFF⟩ := by
  decide +kernel

/-- Zero. -/
example : Fe5.inv? ⟨0, 0, 0, 0, 0⟩ = some ⟨0, 0, 0, 0, 0⟩ ∧
    Sc4.inverseVar? 12 ⟨0, 0, 0, 0⟩ = some ⟨0, 0, 0, 0⟩ := by
  constructor <;> decide +kernel

/-- A composite modulus, which the interface also admits: 15, with the inverse of 7. -/
example : (⟨⟨15, 0, 0, 0, 0⟩, 0x2EEEEEEEEEEEEEEF⟩ : Modinfo).Ok 15 ∧
    modinv64 ⟨7, 0, 0, 0, 0⟩ ⟨⟨15, 0, 0, 0, 0⟩, 0x2EEEEEEEEEEEEEEF⟩ = some ⟨13, 0, 0, 0, 0⟩ := by
  refine ⟨by constructor <;> decide, by decide +kernel⟩

end Secp
