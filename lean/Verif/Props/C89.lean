import Verif.Proof.VerifyField10Ops

/-! # C89: the checks of a `VERIFY` build inside the field code on ten limbs

A build with `VERIFY` and 32-bit limbs checks the width of every intermediate value of the multiplication and the
squaring of field elements, in a few places to the unit, the carries of the normalizations, the multiples of the modulus
that a negation subtracts from and the parity in a halving.  The functions with the suffix `V` make these checks; `none` is
an abort. -/

namespace Secp
open Model

/-- The widths that the multiplication asks of an operand: 30 bits for the lower limbs and 26 for the highest. -/
def C89.Widths (a : Fe10) : Prop :=
  (∀ x ∈ [a.n0, a.n1, a.n2, a.n3, a.n4, a.n5, a.n6, a.n7, a.n8], x < 2 ^ 30) ∧ a.n9 < 2 ^ 26

theorem C89.widths_iff (a : Fe10) : C89.Widths a ↔ a.Width := by
  unfold C89.Widths
  simp only [List.forall_mem_cons, List.not_mem_nil, false_imp_iff, implies_true, and_true]
  exact ⟨fun ⟨⟨h0, h1, h2, h3, h4, h5, h6, h7, h8⟩, h9⟩ => ⟨h0, h1, h2, h3, h4, h5, h6, h7, h8, h9⟩,
    fun h => ⟨⟨h.n0, h.n1, h.n2, h.n3, h.n4, h.n5, h.n6, h.n7, h.n8⟩, h.n9⟩⟩

/-- Multiplication: none of the checks on the intermediate values fails and the result is that of the build without
checks, for all operands of the widths asked for; for all others the build aborts. -/
theorem C89_mul (a b : Fe10) :
    (C89.Widths a ∧ C89.Widths b → Fe10.mulV a b = some (Fe10.mul a b)) ∧
      (¬ (C89.Widths a ∧ C89.Widths b) → Fe10.mulV a b = none) := by
  rw [C89.widths_iff, C89.widths_iff]
  unfold Fe10.mulV
  refine ⟨fun h => ?_, fun h => ?_⟩
  · rw [Fe10.operandV_ok h.1, Fe10.operandV_ok h.2]
    exact Fe10.mulProdsV_ok h.1 h.2
  · by_cases ha : a.Width
    · rw [Fe10.operandV_ok ha, Fe10.operandV_none (fun hb => h ⟨ha, hb⟩)]
      rfl
    · rw [Fe10.operandV_none ha]
      rfl

/-- The same for squaring. -/
theorem C89_sqr (a : Fe10) :
    (C89.Widths a → Fe10.sqrV a = some (Fe10.sqr a)) ∧ (¬ C89.Widths a → Fe10.sqrV a = none) := by
  rw [C89.widths_iff]
  unfold Fe10.sqrV
  refine ⟨fun h => ?_, fun h => ?_⟩
  · rw [Fe10.operandV_ok h, Fe10.sqr_eq_mul h.bits, Fe10.sqrProds_eq h.bits]
    exact Fe10.mulProdsV_ok h h
  · rw [Fe10.operandV_none h]
    rfl

/-- Operands of magnitude at most 8, which is what the callers check, have these widths: their product and square are
computed without an abort, have magnitude 1 and the right residues. -/
theorem C89_mul_magnitude {a b : Fe10} (ha : a.Mag 8) (hb : b.Mag 8) :
    (∃ r, Fe10.mulV a b = some r ∧ r.Mag 1 ∧ r.nat % p = a.nat * b.nat % p) ∧
      ∃ r, Fe10.sqrV a = some r ∧ r.Mag 1 ∧ r.nat % p = a.nat * a.nat % p := by
  obtain ⟨h1, h2⟩ := Fe10.mul_spec ha.bits hb.bits
  obtain ⟨h3, h4⟩ := Fe10.mul_spec ha.bits ha.bits
  rw [← Nat.cast_mul] at h2 h4
  have wa := (C89.widths_iff a).mpr ha.width
  have wb := (C89.widths_iff b).mpr hb.width
  refine ⟨⟨_, (C89_mul a b).1 ⟨wa, wb⟩, h1, (ZMod.natCast_eq_natCast_iff _ _ _).mp h2⟩,
    ⟨_, (C89_sqr a).1 wa, ?_⟩⟩
  rw [Fe10.sqr_eq_mul ha.bits]
  exact ⟨h3, (ZMod.natCast_eq_natCast_iff _ _ _).mp h4⟩

/-- The three normalizations and the two tests for zero: none of the checks can fail, whatever the limbs are, and the
results are those of the build without checks. -/
theorem C89_normalize (r : Fe10) :
    r.normalizeV = some r.normalize ∧ r.normalizeWeakV = some r.normalizeWeak ∧
      r.normalizeVarV = some r.normalizeVar ∧ r.normalizesToZeroV = some r.normalizesToZero ∧
      r.normalizesToZeroVarV = some r.normalizesToZeroVar :=
  ⟨r.normalizeV_eq, r.pass1V_eq, r.normalizeVarV_eq, r.normalizesToZeroV_eq, r.normalizesToZeroVarV_eq⟩

/-- Halving: the check on the parity cannot fail, whatever the limbs are. -/
theorem C89_half (r : Fe10) : r.halfV = some r.half := r.halfV_eq

/-- Negation: the checks pass for every magnitude that the callers allow, so that no limb of a field element of that
magnitude is larger than the limb it is subtracted from. -/
theorem C89_negate {m : ℕ} (hm : m ≤ 31) (a : Fe10) :
    a.negateV m = some (a.negate m) ∧ (a.Mag m → (a.negate m).nat + a.nat = 2 * (m + 1) * p) :=
  ⟨Fe10.negateV_eq hm a, fun h => (Fe10.negate_spec hm h).2⟩

/-! ### The hypotheses are met -/

/-- The largest limbs that the multiplication takes. -/
def C89.top : Fe10 :=
  ⟨2 ^ 30 - 1, 2 ^ 30 - 1, 2 ^ 30 - 1, 2 ^ 30 - 1, 2 ^ 30 - 1, 2 ^ 30 - 1, 2 ^ 30 - 1, 2 ^ 30 - 1, 2 ^ 30 - 1, 2 ^ 26 - 1⟩

example : C89.Widths C89.top ∧ Fe10.mulV C89.top C89.top = some (Fe10.mul C89.top C89.top) ∧
    Fe10.sqrV C89.top = some (Fe10.sqr C89.top) := by
  refine ⟨by unfold C89.Widths C89.top; simp, by decide +kernel, by decide +kernel⟩

/-- An element of magnitude 9 can be refused. -/
example : (⟨0, 2 ^ 30, 0, 0, 0, 0, 0, 0, 0, 0⟩ : Fe10).Mag 9 ∧
    Fe10.mulV ⟨0, 2 ^ 30, 0, 0, 0, 0, 0, 0, 0, 0⟩ ⟨1, 0, 0, 0, 0, 0, 0, 0, 0, 0⟩ = none ∧
    Fe10.mulV ⟨1, 0, 0, 0, 0, 0, 0, 0, 0, 0⟩ ⟨0, 0, 0, 0, 0, 0, 0, 0, 0, 2 ^ 26⟩ = none ∧
    Fe10.sqrV ⟨0, 0, 0, 0, 0, 0, 0, 0, 2 ^ 30, 0⟩ = none := by
  refine ⟨⟨?_, ?_, ?_, ?_, ?_, ?_, ?_, ?_, ?_, ?_⟩, by decide +kernel, by decide +kernel, by decide +kernel⟩ <;> norm_num

example : (⟨2 ^ 32 - 1, 2 ^ 32 - 1, 2 ^ 32 - 1, 2 ^ 32 - 1, 2 ^ 32 - 1, 2 ^ 32 - 1, 2 ^ 32 - 1, 2 ^ 32 - 1, 2 ^ 32 - 1,
      2 ^ 32 - 1⟩ : Fe10).normalizeV ≠ none ∧
    (⟨0x3FFFC2F, 0x3FFFFBF, 2 ^ 26 - 1, 2 ^ 26 - 1, 2 ^ 26 - 1, 2 ^ 26 - 1, 2 ^ 26 - 1, 2 ^ 26 - 1, 2 ^ 26 - 1,
      2 ^ 22 - 1⟩ : Fe10).normalizeVarV = some ⟨0, 0, 0, 0, 0, 0, 0, 0, 0, 0⟩ ∧
    (⟨7, 0, 0, 0, 0, 0, 0, 0, 0, 0⟩ : Fe10).halfV ≠ none ∧ (⟨7, 0, 0, 0, 0, 0, 0, 0, 0, 0⟩ : Fe10).negateV 1 ≠ none ∧
    (⟨7, 0, 0, 0, 0, 0, 0, 0, 0, 0⟩ : Fe10).Mag 1 := by
  refine ⟨by decide +kernel, by decide +kernel, by decide +kernel, by decide +kernel,
    ⟨?_, ?_, ?_, ?_, ?_, ?_, ?_, ?_, ?_, ?_⟩⟩ <;> norm_num

end Secp
