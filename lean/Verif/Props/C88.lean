import Verif.Proof.VerifyField5

/-! # C88: the checks of a `VERIFY` build inside the field code on five limbs

A build with `VERIFY` checks the width of every intermediate value of the multiplication and the squaring of field
elements, the carries of the normalizations, the multiples of the modulus that a negation subtracts from and the parity
in a halving.  The functions with the suffix `V` make these checks; `none` is an abort. -/

namespace Secp
open Model

/-- The widths that the multiplication asks of an operand: 56 bits for the lower limbs and 52 for the highest. -/
def C88.Widths (a : Fe5) : Prop := (∀ x ∈ [a.n0, a.n1, a.n2, a.n3], x < 2 ^ 56) ∧ a.n4 < 2 ^ 52

theorem C88.widths_iff (a : Fe5) : C88.Widths a ↔ a.Bits := by
  unfold C88.Widths
  simp only [List.forall_mem_cons, List.not_mem_nil, false_imp_iff, implies_true, and_true]
  exact ⟨fun ⟨⟨h0, h1, h2, h3⟩, h4⟩ => ⟨h0, h1, h2, h3, h4⟩, fun h => ⟨⟨h.n0, h.n1, h.n2, h.n3⟩, h.n4⟩⟩

/-- Multiplication: none of the checks on the intermediate values fails and the result is that of the build without
checks, for all operands of the widths asked for; for all others the build aborts. -/
theorem C88_mul (a b : Fe5) :
    (C88.Widths a ∧ C88.Widths b → Fe5.mulV a b = some (Fe5.mul a b)) ∧
      (¬ (C88.Widths a ∧ C88.Widths b) → Fe5.mulV a b = none) := by
  rw [C88.widths_iff, C88.widths_iff]
  refine ⟨fun h => ?_, fun h => ?_⟩
  · obtain ⟨r, hr⟩ := Option.ne_none_iff_exists'.mp (Fe5.mulV_ne h.1 h.2)
    rw [hr, (Fe5.mulV_some hr).2.2]
  · by_contra hn
    obtain ⟨r, hr⟩ := Option.ne_none_iff_exists'.mp hn
    exact h ⟨(Fe5.mulV_some hr).1, (Fe5.mulV_some hr).2.1⟩

/-- The same for squaring. -/
theorem C88_sqr (a : Fe5) :
    (C88.Widths a → Fe5.sqrV a = some (Fe5.sqr a)) ∧ (¬ C88.Widths a → Fe5.sqrV a = none) := by
  rw [C88.widths_iff]
  refine ⟨fun h => ?_, fun h => ?_⟩
  · obtain ⟨r, hr⟩ := Option.ne_none_iff_exists'.mp (Fe5.sqrV_ne h)
    rw [hr, (Fe5.sqrV_some hr).2]
  · by_contra hn
    obtain ⟨r, hr⟩ := Option.ne_none_iff_exists'.mp hn
    exact h (Fe5.sqrV_some hr).1

/-- Operands of magnitude at most 8, which is what the callers check, have these widths: their product and square are
computed without an abort, have magnitude 1 and the right residues. -/
theorem C88_mul_magnitude {a b : Fe5} (ha : a.Mag 8) (hb : b.Mag 8) :
    (∃ r, Fe5.mulV a b = some r ∧ r.Mag 1 ∧ r.nat % p = a.nat * b.nat % p) ∧
      ∃ r, Fe5.sqrV a = some r ∧ r.Mag 1 ∧ r.nat % p = a.nat * a.nat % p := by
  obtain ⟨h1, h2⟩ := Fe5.mul_spec ha.bits hb.bits
  obtain ⟨h3, h4⟩ := Fe5.sqr_spec ha.bits
  rw [← Nat.cast_mul] at h2 h4
  have wa := (C88.widths_iff a).mpr ha.bits
  have wb := (C88.widths_iff b).mpr hb.bits
  exact ⟨⟨_, (C88_mul a b).1 ⟨wa, wb⟩, h1, (ZMod.natCast_eq_natCast_iff _ _ _).mp h2⟩,
    ⟨_, (C88_sqr a).1 wa, h3, (ZMod.natCast_eq_natCast_iff _ _ _).mp h4⟩⟩

/-- The three normalizations and the two tests for zero: none of the checks can fail, whatever the limbs are, and the
results are those of the build without checks. -/
theorem C88_normalize (r : Fe5) :
    r.normalizeV = some r.normalize ∧ r.normalizeWeakV = some r.normalizeWeak ∧
      r.normalizeVarV = some r.normalizeVar ∧ r.normalizesToZeroV = some r.normalizesToZero ∧
      r.normalizesToZeroVarV = some r.normalizesToZeroVar :=
  ⟨r.normalizeV_eq, r.pass1V_eq, r.normalizeVarV_eq, r.normalizesToZeroV_eq, r.normalizesToZeroVarV_eq⟩

/-- Halving: the check on the parity cannot fail, whatever the limbs are. -/
theorem C88_half (r : Fe5) : r.halfV = some r.half := r.halfV_eq

/-- Negation: the checks pass for every magnitude that the callers allow, so that no limb of a field element of that
magnitude is larger than the limb it is subtracted from. -/
theorem C88_negate {m : ℕ} (hm : m ≤ 31) (a : Fe5) :
    a.negateV m = some (a.negate m) ∧ (a.Mag m → (a.negate m).nat + a.nat = 2 * (m + 1) * p) :=
  ⟨Fe5.negateV_eq hm a, fun h => (Fe5.negate_spec hm h).2⟩

/-! ### The hypotheses are met -/

/-- The largest limbs that the multiplication takes. -/
def C88.top : Fe5 := ⟨2 ^ 56 - 1, 2 ^ 56 - 1, 2 ^ 56 - 1, 2 ^ 56 - 1, 2 ^ 52 - 1⟩

example : C88.Widths C88.top ∧ Fe5.mulV C88.top C88.top = some (Fe5.mul C88.top C88.top) ∧
    Fe5.sqrV C88.top = some (Fe5.sqr C88.top) := by
  refine ⟨by unfold C88.Widths C88.top; simp, by decide +kernel, by decide +kernel⟩

/-- An element of magnitude 9 can be refused. -/
example : (⟨2 ^ 56, 0, 0, 0, 0⟩ : Fe5).Mag 9 ∧ Fe5.mulV ⟨2 ^ 56, 0, 0, 0, 0⟩ ⟨1, 0, 0, 0, 0⟩ = none ∧
    Fe5.mulV ⟨1, 0, 0, 0, 0⟩ ⟨0, 0, 0, 0, 2 ^ 52⟩ = none ∧ Fe5.sqrV ⟨0, 0, 0, 2 ^ 56, 0⟩ = none := by
  refine ⟨⟨?_, ?_, ?_, ?_, ?_⟩, by decide +kernel, by decide +kernel, by decide +kernel⟩ <;> norm_num

example : (⟨2 ^ 64 - 1, 2 ^ 64 - 1, 2 ^ 64 - 1, 2 ^ 64 - 1, 2 ^ 64 - 1⟩ : Fe5).normalizeV ≠ none ∧
    (⟨0xFFFFEFFFFFC2F, 2 ^ 52 - 1, 2 ^ 52 - 1, 2 ^ 52 - 1, 2 ^ 48 - 1⟩ : Fe5).normalizeVarV = some ⟨0, 0, 0, 0, 0⟩ ∧
    (⟨7, 0, 0, 0, 0⟩ : Fe5).halfV ≠ none ∧ (⟨7, 0, 0, 0, 0⟩ : Fe5).negateV 1 ≠ none ∧
    (⟨7, 0, 0, 0, 0⟩ : Fe5).Mag 1 := by
  refine ⟨by decide +kernel, by decide +kernel, by decide +kernel, by decide +kernel, ⟨?_, ?_, ?_, ?_, ?_⟩⟩ <;> norm_num

end Secp
