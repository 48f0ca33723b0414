import Verif.Proof.VerifyJacobi
import Verif.Props.C59
import Verif.Props.C86

/-! # C87: the checks of a `VERIFY` build inside the Jacobi symbol

A build with `VERIFY` makes at most twelve passes in `secp256k1_jacobi64_maybe_var`, in place of 25, and checks there:
that the argument has no negative limb and is not zero, that both variables are positive and at most the modulus, with
the number of limbs in use, in every pass, the number of bits to cancel and the bits cancelled, the transition matrix
against the words it was computed from and its determinant, the bits that are shifted out, every conversion of a 128-bit
accumulator to a limb.  The functions with the suffix `V` make these checks; `none` is an abort or undefined
behaviour.  The symbol is Mathlib's `jacobiSym`, written `J(a | b)`. -/

namespace Secp
open Model Model.Verify Spec
open scoped NumberTheorySymbols

/-- For every odd modulus of at most 256 bits and every residue but zero none of the checks fails.  The result is the
Jacobi symbol or 0 for "unknown"; when it is not 0, the build without checks returns the same. -/
theorem C87_jacobi {M : Modinfo} {m : ℤ} (hM : M.Ok m) (hM' : 0 ≤ M.modulus.v0 ∨ M.modulus.v1 = 0) {x : S62}
    (hx : x.Canon) (h0 : x.int ≠ 0) (hlt : x.int < m) :
    ∃ r, jacobi64MaybeVarV x M = some r ∧ (r = 0 ∨ r = J(x.int | m.toNat)) ∧
      (r ≠ 0 → jacobi64MaybeVar x M = some r) := by
  obtain ⟨r, e, hr⟩ := jacobi64MaybeVarV_ok hM hM' hx h0 hlt
  obtain ⟨s, es, hs⟩ := C59_jacobi hM hM' hx hlt
  refine ⟨r, e, ?_, fun h => hr.resolve_left h⟩
  rcases hr with hr | hr
  · exact Or.inl hr
  · rw [es] at hr
    cases hr
    exact hs

/-- Zero makes the check on the argument fail, for every modulus, and so does a negative limb. -/
theorem C87_zero (M : Modinfo) {x : S62} (hx : x = ⟨0, 0, 0, 0, 0⟩ ∨ ∃ a ∈ x.toList, a < 0) :
    jacobi64MaybeVarV x M = none := by
  rcases hx with rfl | ⟨a, ha, hneg⟩
  · unfold jacobi64MaybeVarV
    refine bind_step (check_true (by decide)) ?_
    rw [show decide (or64 (or64 (or64 (or64 0 0) 0) 0) 0 ≠ 0) = false by decide]
    rfl
  · have h : (decide (x.v0 ≥ 0) && decide (x.v1 ≥ 0) && decide (x.v2 ≥ 0) && decide (x.v3 ≥ 0) &&
        decide (x.v4 ≥ 0)) = false := by
      rw [Bool.eq_false_iff]
      intro h
      simp only [Bool.and_eq_true, decide_eq_true_eq] at h
      simp only [S62.toList, List.mem_cons, List.not_mem_nil, or_false] at ha
      omega
    unfold jacobi64MaybeVarV
    rw [h]
    rfl

/-- The division steps alone, for all 64-bit words with the first odd and every counter that the loop can reach: none
of the checks on the words, the cancelled bits and the determinant fails. -/
theorem C87_posdivsteps {z : ℤ} {f0 g0 jac : ℕ} (hf : f0 % 2 = 1) (hf0 : f0 < 2 ^ 64) (hg0 : g0 < 2 ^ 64)
    (hz : |z| ≤ 2 ^ 20) :
    ∃ r, posdivsteps62VarV z f0 g0 jac = some r ∧ posdivsteps62Var z f0 g0 jac = some r := by
  obtain ⟨h, z', u, v, q, r, j, e, -⟩ := posdivsteps62VarV_ok (jac := jac) hf hf0 hg0 hz
  exact ⟨_, h.trans e, e⟩

/-- An even first word makes them fail, unless the second has no bit to work on. -/
theorem C87_posdivsteps_even {z : ℤ} {f0 g0 jac : ℕ} (hf : f0 % 2 = 0) (hg : ¬ 2 ^ 62 ∣ g0) :
    posdivsteps62VarV z f0 g0 jac = none := by
  have h : posdivsteps62VarLoopV f0 g0 63 ⟨z, f0, g0, 1, 0, 0, 1⟩ 62 jac = none := by
    unfold posdivsteps62VarLoopV
    obtain ⟨k, e, hk, hd, -, -⟩ := zeros_spec (g := g0) (i := 62) (le_refl _)
    have hlt : ¬ 62 - k = 0 := by
      intro h0
      have : k = 62 := by omega
      rw [this] at hd
      exact hg hd
    cases hs : shiftZerosV ⟨z, f0, g0, 1, 0, 0, 1⟩ 62 with
    | none => rfl
    | some si =>
      have hsi : si.1.f = f0 ∧ si.2.1 = 62 - k := by
        unfold shiftZerosV at hs
        cases hc : check (decide (g0 ||| u64 ((2 ^ 64 - 1) <<< 62) ≠ 0)) with
        | none => rw [hc] at hs; cases hs
        | some _ =>
          rw [hc] at hs
          change shiftZeros _ _ = _ at hs
          unfold shiftZeros at hs
          dsimp only at hs
          rw [e, if_pos hk] at hs
          cases hi : i64? (z - k) with
          | none => rw [hi] at hs; cases hs
          | some a =>
            rw [hi, Option.bind_some] at hs
            cases hs
            exact ⟨rfl, rfl⟩
      refine bind_step rfl ?_
      dsimp only
      rw [if_neg (by rw [hsi.2]; exact hlt), show decide (si.1.f &&& 1 = 1) = false by
        rw [hsi.1, Nat.and_one_is_mod, hf]; rfl]
      rfl
  unfold posdivsteps62VarV
  rw [h]
  rfl

/-- The test for squares on limbs, for every field element of magnitude up to 32: none of the checks inside the Jacobi
symbol fails, and the answer is right and the one of the build without checks, although that makes up to 25 passes. -/
theorem C87_is_square [Fe5.LimbInv] {x : Fe5} {v : Fp} (hx : x.Rep 32 v) :
    ∃ b, feImplIsSquareVarV x = some b ∧ Fe5.isSquareVar? x = some b ∧ (b = true ↔ IsSquare v) := by
  obtain ⟨b, e, hb⟩ := C59_is_square hx
  refine ⟨b, ?_, e, hb⟩
  obtain ⟨hn, hv⟩ := Fe5.normalize_spec hx.mag
  have hvn : ((Fe5.normalize x).nat : Fp) = v := by rw [hv, ← hx.val, ZMod.natCast_mod]
  obtain ⟨c1, c2⟩ := Fe5.toSigned62_spec hn
  have hlt : (Fe5.toSigned62 (Fe5.normalize x)).int < p := by rw [c2]; exact_mod_cast hn.lt
  have hz : Fe5.isZero (Fe5.normalize x) = true ↔ v = 0 := by
    rw [(C45_is_zero_odd_cmp hn hn hvn hvn).1, decide_eq_true_iff]
  unfold feImplIsSquareVarV
  unfold Fe5.isSquareVar? at e
  dsimp only at e ⊢
  rw [Fe5.normalizeVar_eq hx.mag] at e ⊢
  by_cases h0 : Fe5.isZero (Fe5.normalize x) = true
  · rw [if_pos h0] at e ⊢
    exact e
  rw [if_neg h0] at e ⊢
  have hne : (Fe5.toSigned62 (Fe5.normalize x)).int ≠ 0 := by
    intro h
    rw [c2] at h
    apply h0
    rw [hz, ← hvn, show (Fe5.normalize x).nat = 0 by exact_mod_cast h, Nat.cast_zero]
  obtain ⟨r, er, -, hr⟩ := C87_jacobi modinfoFe_ok (Or.inr rfl) c1 hne hlt
  refine bind_step er ?_
  by_cases hr0 : r = 0
  · rw [if_pos hr0]
    have hrep : (Fe5.normalize x).Rep 8 v := ⟨hn.mag.mono (by norm_num), hvn⟩
    have hs := (C58_sqrt hrep).1
    exact congrArg some (Bool.eq_iff_iff.mpr (hs.trans hb.symm))
  · rw [hr hr0, Option.bind_some] at e
    exact e

/-! ### Examples -/

/-- A build with `VERIFY` gives up on an element for which the build without it finds the symbol; both find the
symbol of 10. -/
example : jacobi64MaybeVarV (Fe5.toSigned62 (Fe5.normalizeVar maxFe8)) modinfoFe = some 0 ∧
    jacobi64MaybeVar (Fe5.toSigned62 (Fe5.normalizeVar maxFe8)) modinfoFe = some 1 := by
  constructor <;> decide +kernel

example : jacobi64MaybeVarV ⟨10, 0, 0, 0, 0⟩ modinfoFe = some (-1) := by decide +kernel

/-- A composite modulus: `(7 | 15) = -1`; 6 has a common factor with 15, which is no reason to abort; 0 is one. -/
example : jacobi64MaybeVarV ⟨7, 0, 0, 0, 0⟩ modinfo15 = some (-1) ∧
    jacobi64MaybeVarV ⟨6, 0, 0, 0, 0⟩ modinfo15 = some 0 ∧ jacobi64MaybeVarV ⟨0, 0, 0, 0, 0⟩ modinfo15 = none :=
  ⟨by decide +kernel, by decide +kernel, C87_zero _ (Or.inl rfl)⟩

/-- A modulus that meets the hypotheses. -/
example : modinfo15.Ok 15 ∧ (0 ≤ modinfo15.modulus.v0 ∨ modinfo15.modulus.v1 = 0) :=
  ⟨modinfo15_ok, Or.inl (by decide)⟩

end Secp
