import Verif.Props.C19

/-! # C20: combining public keys is the group sum -/

namespace Secp
open Model Spec

theorem combineLoop_rep : ∀ (Ps : List Pt) (_ : ∀ P ∈ Ps, P ≠ 0) (acc : Gej Fp) (A : Pt)
    (_ : GejRep 7 acc A) (ill : ℕ),
    ∃ r, ecPubkeyCombineLoop (Ps.map fun P => some (keyObject P)) acc ill = (some r, ill) ∧
      GejRep 7 r (A + Ps.sum)
  | [], _, acc, A, hA, ill => ⟨acc, rfl, by simpa using hA⟩
  | P :: Ps, h, acc, A, hA, ill => by
    obtain ⟨h1, h2, h3⟩ := pubkeyLoad_obj (h P (by simp))
    obtain ⟨r, e, hr⟩ := combineLoop_rep Ps (fun Q hQ => h Q (by simp [hQ])) _ _
      (gejAddGe_rep neg7_not_cube hA h2 h3) ill
    refine ⟨r, ?_, by rw [List.sum_cons, ← add_assoc]; exact hr⟩
    simp only [List.map_cons, ecPubkeyCombineLoop, h1, if_true]
    exact e

theorem combine_eq {Ps : List Pt} (hne : Ps ≠ []) (h : ∀ P ∈ Ps, P ≠ 0) (old : Bytes) :
    ecPubkeyCombine (some old) (some (Ps.map fun P => some (keyObject P))) Ps.length =
      if Ps.sum = 0 then ⟨0, 0, some (List.replicate 64 0)⟩
      else ⟨1, 0, some (keyObject Ps.sum)⟩ := by
  have hpos : Ps.length ≥ 1 := List.length_pos_iff.2 hne
  obtain ⟨r, e, hr⟩ := combineLoop_rep Ps h gejInfinity 0 (GejRep.of_inf rfl) 0
  rw [zero_add] at hr
  have ht : (Ps.map fun P => some (keyObject P)).take Ps.length =
      Ps.map fun P => some (keyObject P) := List.take_of_length_le (by simp)
  simp only [ecPubkeyCombine, hpos, not_true, if_false, ht, e]
  by_cases hs : Ps.sum = 0
  · rw [if_pos hs, if_pos (hr.inf_iff.2 hs)]; rfl
  · rw [if_neg hs, if_neg (fun hi => hs (hr.inf_iff.1 hi)), pubkeySave_rep (geSetGej_rep hr) hs]

/-- The sum of the points, for every non-empty list of valid keys whose sum is not infinity. -/
theorem C20_combine {Ps : List Pt} (hne : Ps ≠ []) (h : ∀ P ∈ Ps, P ≠ 0) (old : Bytes)
    (hs : Ps.sum ≠ 0) :
    ecPubkeyCombine (some old) (some (Ps.map fun P => some (keyObject P))) Ps.length =
      ⟨1, 0, some (keyObject Ps.sum)⟩ := by
  rw [combine_eq hne h, if_neg hs]

/-- A sum equal to infinity: return 0, zeroed output. -/
theorem C20_combine_infinity {Ps : List Pt} (hne : Ps ≠ []) (h : ∀ P ∈ Ps, P ≠ 0) (old : Bytes)
    (hs : Ps.sum = 0) :
    ecPubkeyCombine (some old) (some (Ps.map fun P => some (keyObject P))) Ps.length =
      ⟨0, 0, some (List.replicate 64 0)⟩ := by
  rw [combine_eq hne h, if_pos hs]

/-- The order of the inputs does not matter. -/
theorem C20_combine_perm {Ps Qs : List Pt} (hp : Ps.Perm Qs) (hne : Ps ≠ [])
    (h : ∀ P ∈ Ps, P ≠ 0) (old : Bytes) :
    ecPubkeyCombine (some old) (some (Ps.map fun P => some (keyObject P))) Ps.length =
    ecPubkeyCombine (some old) (some (Qs.map fun P => some (keyObject P))) Qs.length := by
  rw [combine_eq hne h, combine_eq (fun e => hne (by subst e; exact hp.eq_nil))
    (fun P hP => h P (hp.mem_iff.2 hP)), hp.sum_eq]

/-- Three keys with a finite sum, two with sum infinity. -/
example : [G, G, G] ≠ [] ∧ (∀ P ∈ [G, G, G], P ≠ 0) ∧ [G, G, G].sum ≠ 0 ∧ [G, -G].sum = 0 := by
  refine ⟨by simp, by simp [G_ne_zero], ?_, by simp⟩
  have : [G, G, G].sum = 3 • G := by simp; abel
  rw [this, Ne, nsmul_G_eq_zero]
  decide +kernel

end Secp
