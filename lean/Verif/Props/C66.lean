import Verif.Proof.Jacobi32
import Verif.Proof.Modinv32Conv
import Verif.Proof.LimbRep10
import Verif.Proof.Sqrt
import Verif.Props.C46
import Verif.Props.C65
import Verif.Model.GroupX

/-!
# C66: inversion and the test for squares on 32-bit targets

The safegcd inversion of `modinv32_impl.h`, with 30-bit signed limbs and 32/64-bit signed arithmetic, for
every input and in its constant-time and its variable-time variant: no signed arithmetic overflows, no
shift is out of range, the unbounded loop of the variable-time variant ends, and the result is the
inverse, or 0 for 0.  The test for squares built on the Jacobi symbol is exact.

`none` in the model stands for undefined behaviour and, for the variable-time variant, for running
out of the `fuel` iterations the model grants to `while (1)`.
-/

namespace Secp
open Model Spec
open Model.M32 (Canon int30 modinv32 modinv32Var jacobi32MaybeVar)
open scoped NumberTheorySymbols

/-- `secp256k1_modinv32` (modinv32.h:27-36), for every modulus the interface admits and every `x` in
`[0, modulus)` coprime to it, or zero. -/
theorem C66_modinv32 {M : M32.Modinfo} {m : ℤ} (hM : M.Ok m) {x : List ℤ} (hx : Canon x)
    (hlt : int30 x < m) :
    ∃ r, modinv32 x M = some r ∧ Canon r ∧ int30 r < m ∧ (int30 x = 0 → int30 r = 0) ∧
      (IsCoprime (int30 x) m → int30 r * int30 x % m = 1) := by
  obtain ⟨r, h1, h2, h3, h4, h5, h6⟩ := M32.modinv32_spec hM hx hlt
  refine ⟨r, h1, h2, h4, h5, fun h => ?_⟩
  have := h6 h
  have hm := hM.ge
  rwa [Int.ModEq, Int.emod_eq_of_lt (by omega) (by omega : (1 : ℤ) < m)] at this

/-- `secp256k1_modinv32_var` (modinv32.h:27-33): the same, and its loop ends within 25 iterations. -/
theorem C66_modinv32_var {M : M32.Modinfo} {m : ℤ} (hM : M.Ok m) {x : List ℤ} (hx : Canon x)
    (hlt : int30 x < m) {fuel : ℕ} (hf : 25 ≤ fuel) :
    ∃ r, modinv32Var fuel x M = some r ∧ Canon r ∧ int30 r < m ∧ (int30 x = 0 → int30 r = 0) ∧
      (IsCoprime (int30 x) m → int30 r * int30 x % m = 1) := by
  obtain ⟨r, h1, h2, h3, h4, h5, h6⟩ := M32.modinv32Var_spec hM hx hlt hf
  refine ⟨r, h1, h2, h4, h5, fun h => ?_⟩
  have := h6 h
  have hm := hM.ge
  rwa [Int.ModEq, Int.emod_eq_of_lt (by omega) (by omega : (1 : ℤ) < m)] at this

/-- The constants `secp256k1_const_modinfo_fe` and `secp256k1_const_modinfo_scalar` of the 32-bit
backends describe `p` and `n`. -/
theorem C66_modinfo : M32.modinfoFe.Ok (p : ℤ) ∧ M32.modinfoScalar.Ok (n : ℤ) :=
  ⟨M32.modinfoFe_ok, M32.modinfoScalar_ok⟩

theorem Fe10.inv_of {x : Fe10} {v : Fp} (hn : Normalizable x) (hx : (x.nat : Fp) = v)
    {f : List ℤ → Option (List ℤ)}
    (hf : ∀ {y : List ℤ}, Canon y → int30 y < p → ∃ r, f y = some r ∧ Canon r ∧ int30 r < p ∧
      (int30 y = 0 → int30 r = 0) ∧ (IsCoprime (int30 y) p → int30 r * int30 y % p = 1)) :
    ∃ r, (f (Fe10.toSigned30 (Fe10.normalize x))).bind (fun s => some (Fe10.fromSigned30 s)) = some r ∧
      r.Norm ∧ (v = 0 → r.nat = 0) ∧ (v ≠ 0 → (r.nat : Fp) * v = 1) := by
  obtain ⟨hn, hv, -⟩ := C64_normalize hn hx
  obtain ⟨c1, c2⟩ := Fe10.toSigned30_spec hn
  have hlt : (Fe10.normalize x).nat < p := hn.lt
  obtain ⟨s, e, s1, s2, s3, s4⟩ := hf c1 (by rw [c2]; exact_mod_cast hlt)
  obtain ⟨f1, f2⟩ := Fe10.fromSigned30_spec s1 s2
  rw [c2] at s3 s4
  rw [← f2] at s3 s4
  obtain ⟨i1, i2⟩ := inverse_value p_prime hlt s3 s4
  have hvn : ((Fe10.normalize x).nat : Fp) = v := by rw [hv]; exact ZMod.natCast_zmod_val v
  have hz : v = 0 ↔ (Fe10.normalize x).nat = 0 := by rw [hv, ZMod.val_eq_zero]
  refine ⟨_, by rw [e]; rfl, f1, fun h => i1 (hz.mp h), fun h => ?_⟩
  rw [← hvn]
  exact i2 (fun h0 => h (hz.mpr h0))

/-- `secp256k1_fe_inv` (field.h:244-247): for every field element that can be normalized. -/
theorem C66_fe_inv {x : Fe10} {v : Fp} (hn : Normalizable x) (hx : (x.nat : Fp) = v) :
    ∃ r, Fe10.inv? x = some r ∧ r.Norm ∧ (v = 0 → r.nat = 0) ∧ (v ≠ 0 → (r.nat : Fp) * v = 1) :=
  Fe10.inv_of hn hx (f := fun s => modinv32 s M32.modinfoFe) (C66_modinv32 M32.modinfoFe_ok)

/-- `secp256k1_fe_inv_var` (field.h:249-250). -/
theorem C66_fe_inv_var {x : Fe10} {v : Fp} (hn : Normalizable x) (hx : (x.nat : Fp) = v) {fuel : ℕ}
    (hf : 25 ≤ fuel) :
    ∃ r, Fe10.invVar? fuel x = some r ∧ r.Norm ∧ (v = 0 → r.nat = 0) ∧
      (v ≠ 0 → (r.nat : Fp) * v = 1) := by
  unfold Fe10.invVar?
  rw [(C64_normalize hn hx).2.2]
  exact Fe10.inv_of hn hx (f := fun s => modinv32Var fuel s M32.modinfoFe)
    (fun h1 h2 => C66_modinv32_var M32.modinfoFe_ok h1 h2 hf)

/-- The two variants of the inversion give the same limbs. -/
theorem C66_fe_inv_agree {x : Fe10} (hn : Normalizable x) {fuel : ℕ} (hf : 25 ≤ fuel) :
    Fe10.invVar? fuel x = Fe10.inv? x := by
  obtain ⟨r, e, hr, h0, h1⟩ := C66_fe_inv hn rfl
  obtain ⟨r', e', hr', h0', h1'⟩ := C66_fe_inv_var hn rfl hf
  rw [e, e', Option.some_inj]
  apply C64_norm_unique hr' hr
  by_cases h : (x.nat : Fp) = 0
  · rw [h0 h, h0' h]
  · exact mul_right_cancel₀ h ((h1' h).trans (h1 h).symm)

theorem Sc8.inverse_of {x : Sc8} {v : Fn} (hx : x.Rep v) {f : List ℤ → Option (List ℤ)}
    (hf : ∀ {y : List ℤ}, Canon y → int30 y < n → ∃ r, f y = some r ∧ Canon r ∧ int30 r < n ∧
      (int30 y = 0 → int30 r = 0) ∧ (IsCoprime (int30 y) n → int30 r * int30 y % n = 1)) :
    ∃ r w, (f (Sc8.toSigned30 x)).bind (fun s => some (Sc8.fromSigned30 s)) = some r ∧
      r.Rep w ∧ (v = 0 → w = 0) ∧ (v ≠ 0 → w * v = 1) := by
  obtain ⟨c1, c2⟩ := Sc8.toSigned30_spec hx.words
  have hlt : x.nat < n := by rw [hx.val]; exact ZMod.val_lt v
  obtain ⟨s, e, s1, s2, s3, s4⟩ := hf c1 (by rw [c2]; exact_mod_cast hlt)
  have hn : (n : ℤ) < 2 ^ 256 := by unfold n; decide
  obtain ⟨f1, f2⟩ := Sc8.fromSigned30_spec s1 (lt_trans s2 hn)
  rw [c2] at s3 s4
  rw [← f2] at s2 s3 s4
  obtain ⟨i1, i2⟩ := inverse_value n_prime hlt s3 s4
  have hvn : (x.nat : Fn) = v := by rw [hx.val, ZMod.natCast_zmod_val]
  have hz : v = 0 ↔ x.nat = 0 := by rw [hx.val, ZMod.val_eq_zero]
  refine ⟨_, ((Sc8.fromSigned30 s).nat : Fn), by rw [e]; rfl, ⟨f1, ?_⟩, fun h => ?_, fun h => ?_⟩
  · rw [ZMod.val_natCast, Nat.mod_eq_of_lt (by exact_mod_cast s2)]
  · rw [i1 (hz.mp h), Nat.cast_zero]
  · rw [← hvn]
    exact i2 (fun h0 => h (hz.mpr h0))

/-- `secp256k1_scalar_inverse` (scalar.h:70-71). -/
theorem C66_scalar_inverse {x : Sc8} {v : Fn} (hx : x.Rep v) :
    ∃ r w, Sc8.inverse? x = some r ∧ r.Rep w ∧ (v = 0 → w = 0) ∧ (v ≠ 0 → w * v = 1) :=
  Sc8.inverse_of hx (f := fun s => modinv32 s M32.modinfoScalar) (C66_modinv32 M32.modinfoScalar_ok)

/-- `secp256k1_scalar_inverse_var` (scalar.h:73-74). -/
theorem C66_scalar_inverse_var {x : Sc8} {v : Fn} (hx : x.Rep v) {fuel : ℕ} (hf : 25 ≤ fuel) :
    ∃ r w, Sc8.inverseVar? fuel x = some r ∧ r.Rep w ∧ (v = 0 → w = 0) ∧ (v ≠ 0 → w * v = 1) :=
  Sc8.inverse_of hx (f := fun s => modinv32Var fuel s M32.modinfoScalar)
    (fun h1 h2 => C66_modinv32_var M32.modinfoScalar_ok h1 h2 hf)

/-! ### The test for squares -/

/-- `secp256k1_jacobi32_maybe_var` (modinv32.h:38-41) for every odd modulus in `[3, 2^256]` and every
residue: there is no undefined behaviour, and the result is the Jacobi symbol or 0 for "unknown".  Limb 0
of the modulus must not be negative unless limb 1 is a multiple of 4 (modinv32_impl.h:687 joins them by
`|`). -/
theorem C66_jacobi {M : M32.Modinfo} {m : ℤ} (hM : M.Ok m)
    (hM' : 0 ≤ M.modulus.getD 0 0 ∨ M.modulus.getD 1 0 % 4 = 0) {x : List ℤ} (hx : Canon x)
    (hlt : int30 x < m) :
    ∃ r, jacobi32MaybeVar x M = some r ∧ (r = 0 ∨ r = J(int30 x | m.toNat)) :=
  M32.jacobi32MaybeVar_spec hM hM' hx hlt

/-- `secp256k1_fe_is_square_var` on 26-bit limbs, for every field element that can be normalized: there is
no undefined behaviour, and the answer tells whether the element is a square modulo `p`. -/
theorem C66_is_square [Fe10.LimbInv] {x : Fe10} {v : Fp} (hn : Normalizable x) (hx : (x.nat : Fp) = v) :
    ∃ b, Fe10.isSquareVar? x = some b ∧ (b = true ↔ IsSquare v) := by
  obtain ⟨hn, hv, hvar⟩ := C64_normalize hn hx
  have hlt : (Fe10.normalize x).nat < p := hn.lt
  have hvn : ((Fe10.normalize x).nat : Fp) = v := by rw [hv]; exact ZMod.natCast_zmod_val v
  unfold Fe10.isSquareVar?
  dsimp only
  rw [hvar]
  have hz : Fe10.isZero (Fe10.normalize x) = true ↔ v = 0 := by
    rw [(C64_is_zero_odd_cmp hn hn hvn hvn).1, decide_eq_true_iff]
  by_cases h0 : Fe10.isZero (Fe10.normalize x) = true
  · rw [if_pos h0]
    refine ⟨true, rfl, iff_of_true rfl ?_⟩
    rw [hz.mp h0]
    exact IsSquare.zero
  rw [if_neg h0]
  have hv0 : v ≠ 0 := fun h => h0 (hz.mpr h)
  obtain ⟨c1, c2⟩ := Fe10.toSigned30_spec hn
  obtain ⟨r, e, hr⟩ := C66_jacobi M32.modinfoFe_ok (Or.inr rfl) c1
    (by rw [c2]; exact_mod_cast hlt)
  rw [e, Option.bind_some]
  have : Fact p.Prime := ⟨p_prime⟩
  rw [c2, Int.toNat_natCast, ← jacobiSym.legendreSym.to_jacobiSym] at hr
  by_cases hr0 : r = 0
  · rw [if_pos hr0]
    have hrep : (Fe10.normalize x).Rep 8 v := ⟨hn.mag.mono (by norm_num), hvn⟩
    refine ⟨_, rfl, ?_⟩
    rw [(LimbRep.Rep.sqrt (α := Fe10) hrep).2]
    exact sqrt_snd v
  · rw [if_neg hr0]
    refine ⟨_, rfl, ?_⟩
    have hr := hr.resolve_left hr0
    have hc : (((Fe10.normalize x).nat : ℤ) : ZMod p) ≠ 0 := by
      rw [Int.cast_natCast]
      change ((Fe10.normalize x).nat : Fp) ≠ 0
      rw [hvn]; exact hv0
    rw [decide_eq_true_iff]
    have h1 : r ≥ 0 ↔ legendreSym p (Fe10.normalize x).nat = 1 := by
      rw [← hr]
      rcases legendreSym.eq_one_or_neg_one p hc with h | h <;> rw [← hr] at h <;> omega
    rw [h1, legendreSym.eq_one_iff p hc, Int.cast_natCast]
    change IsSquare ((Fe10.normalize x).nat : Fp) ↔ _
    rw [hvn]

/-- The 32-bit and the 64-bit build give the same answer: that of the value-level test, on which the other
properties rest. -/
theorem C66_is_square_value [Fe10.LimbInv] {x : Fe10} {v : Fp} (hn : Normalizable x)
    (hx : (x.nat : Fp) = v) : Fe10.isSquareVar? x = some (feIsSquareVar v) := by
  obtain ⟨b, e, hb⟩ := C66_is_square hn hx
  rw [e]
  congr 1
  rw [Bool.eq_iff_iff, hb]
  unfold feIsSquareVar
  by_cases h : v = 0
  · subst h
    rw [if_pos (by unfold feIsZero; simp)]
    exact iff_of_true IsSquare.zero rfl
  · rw [if_neg (by unfold feIsZero; simpa using h), sqrt_snd]

/-! ### Examples -/

/-- The hypotheses of `C66_fe_inv` and `C66_fe_inv_var` hold for the largest limbs of magnitude 31. -/
example : Normalizable (maxFe10 31) ∧
    (Fe10.inv? (maxFe10 31)).map (fun r => r.nat * (maxFe10 31).nat % p) = some 1 ∧
    Fe10.invVar? 25 (maxFe10 31) = Fe10.inv? (maxFe10 31) :=
  ⟨.inl (by constructor <;> decide), by decide +kernel, by decide +kernel⟩

/-- Scalars: the inverse of `n - 1` is itself. -/
example : Sc8.inverse? ⟨0xD0364140, 0xBFD25E8C, 0xAF48A03B, 0xBAAEDCE6, 0xFFFFFFFE, 0xFFFFFFFF, 0xFFFFFFFF,
      0xFFFFFFFF⟩ =
    some ⟨0xD0364140, 0xBFD25E8C, 0xAF48A03B, 0xBAAEDCE6, 0xFFFFFFFE, 0xFFFFFFFF, 0xFFFFFFFF, 0xFFFFFFFF⟩ := by
  decide +kernel

/-- Zero. -/
example : Fe10.inv? ⟨0, 0, 0, 0, 0, 0, 0, 0, 0, 0⟩ = some ⟨0, 0, 0, 0, 0, 0, 0, 0, 0, 0⟩ ∧
    Sc8.inverseVar? 25 ⟨0, 0, 0, 0, 0, 0, 0, 0⟩ = some ⟨0, 0, 0, 0, 0, 0, 0, 0⟩ := by
  constructor <;> decide +kernel

/-- A composite modulus, which the interface also admits: 15, with the inverse of 7 and the symbols of 7
and 2. -/
example : (⟨[15, 0, 0, 0, 0, 0, 0, 0, 0], 0x2EEEEEEF⟩ : M32.Modinfo).Ok 15 ∧
    modinv32 [7, 0, 0, 0, 0, 0, 0, 0, 0] ⟨[15, 0, 0, 0, 0, 0, 0, 0, 0], 0x2EEEEEEF⟩ =
      some [13, 0, 0, 0, 0, 0, 0, 0, 0] ∧
    jacobi32MaybeVar [7, 0, 0, 0, 0, 0, 0, 0, 0] ⟨[15, 0, 0, 0, 0, 0, 0, 0, 0], 0x2EEEEEEF⟩ = some (-1) ∧
    jacobi32MaybeVar [2, 0, 0, 0, 0, 0, 0, 0, 0] ⟨[15, 0, 0, 0, 0, 0, 0, 0, 0], 0x2EEEEEEF⟩ = some 1 := by
  refine ⟨by constructor <;> decide, by decide +kernel, by decide +kernel, by decide +kernel⟩

/-- `3` is not a square modulo `p`, and `4` is. -/
example : @Fe10.isSquareVar? ⟨id, id⟩ ⟨3, 0, 0, 0, 0, 0, 0, 0, 0, 0⟩ = some false ∧
    @Fe10.isSquareVar? ⟨id, id⟩ ⟨4, 0, 0, 0, 0, 0, 0, 0, 0, 0⟩ = some true := by
  constructor <;> decide +kernel

end Secp
