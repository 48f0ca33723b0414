import Verif.Proof.Order
import Verif.Proof.GroupEq

/-!
# C47 — Every accepted public key has order n

The curve has exactly `n` points, `n` is prime, and so every finite point generates the group and
has y ≠ 0.  (Acceptance of a public key is C01; here "accepted" is `secp256k1_ge_is_valid_var`.)
-/

namespace Secp
open Model

/-- `p` and `n` are prime and the curve has exactly `n` points. -/
theorem C47_order : Nat.Prime p ∧ Nat.Prime n ∧ Nat.card Pt = n := ⟨p_prime, n_prime, card_Pt⟩

/-- A structure accepted by the validity check represents a point of order exactly `n` that
generates the whole group, and its y coordinate is not 0. -/
theorem C47_accepted_key_generates {a : Ge Fp} (h : geIsValidVar a = true) :
    a.y ≠ 0 ∧ ∃ P : Pt, GeRep 7 a P ∧ addOrderOf P = n ∧ ∀ Q : Pt, ∃ k < n, Q = k • P := by
  obtain ⟨P, h0, hP⟩ := (geIsValidVar_iff a).1 h
  have hi : a.infinity = false := by
    cases hi : a.infinity
    · rfl
    · exact absurd (hP.inf_iff.1 hi) h0
  obtain ⟨hn, e⟩ := hP.elim hi
  refine ⟨neg7_not_cube.y_ne (nonsingular_eq hn), P, hP, ?_, ?_⟩
  · have := addOrderOf_dvd_of_nsmul_eq_zero (n_smul P)
    rcases (Nat.dvd_prime n_prime).1 this with h | h
    · exact absurd (AddMonoid.addOrderOf_eq_one_iff.1 h) h0
    · exact h
  · intro Q
    obtain ⟨k, hk⟩ := exists_smul_of_ne_zero h0 Q
    exact ⟨k.val, ZMod.val_lt k, by rw [hk, val_smul]⟩

/-- Non-vacuity: the generator is accepted. -/
example : geIsValidVar (⟨(gx : Fp), (gy : Fp), false⟩ : Ge Fp) = true :=
  (geIsValidVar_iff _).2 ⟨G, G_ne_zero, GeRep.intro rfl rfl rfl⟩

end Secp
