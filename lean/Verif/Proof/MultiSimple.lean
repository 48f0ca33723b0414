import Verif.Model.MultiSimple
import Verif.Proof.Strauss

/-! # `secp256k1_ecmult_multi_simple_var` -/

namespace Secp
open WeierstrassCurve Model

/-- A callback hands out the scalars and points of the list `l`, from the index `idx` on. -/
def CallbackFor (cb : MultiCallback) : ℕ → List (Fn × Pt) → Prop
  | _, [] => True
  | idx, (s, P) :: rest => (∃ a, cb idx = some (s, a) ∧ GeRep 7 a P) ∧ CallbackFor cb (idx + 1) rest

theorem multiSimpleLoop_rep {cb : MultiCallback} : ∀ (l : List (Fn × Pt)) (idx : ℕ) (r : Gej Fp) (A : Pt),
    CallbackFor cb idx l → GejRep 7 r A →
    ∃ r', multiSimpleLoop cb l.length idx r = some r' ∧
      GejRep 7 r' (A + (l.map fun q => q.1 • q.2).sum)
  | [], _, r, A, _, h => ⟨r, rfl, by simpa using h⟩
  | (s, P) :: rest, idx, r, A, hc, h => by
    obtain ⟨⟨a, h1, h2⟩, h3⟩ := hc
    have hs := ecmult_rep (gejSetGe_rep h2) s none
    rw [Option.getD_none, fn_zero_smul, add_zero] at hs
    obtain ⟨r', e, hr⟩ := multiSimpleLoop_rep rest (idx + 1) _ _ h3 (gejAddVar_rep neg7_not_cube h hs)
    refine ⟨r', ?_, ?_⟩
    · rw [List.length_cons, multiSimpleLoop, h1]
      exact e
    · rw [List.map_cons, List.sum_cons, ← add_assoc]
      exact hr

/-- `secp256k1_ecmult_multi_var` without scratch space -/
theorem ecmultMultiVarNull_rep {cb : MultiCallback} {l : List (Fn × Pt)} (hc : CallbackFor cb 0 l)
    (g : Option Fn) : ∃ r, ecmultMultiVarNull g cb l.length = some r ∧
      GejRep 7 r ((l.map fun q => q.1 • q.2).sum + g.getD 0 • G) := by
  have h0 := ecmult_rep (gejInfinity_rep (7 : Fp)) 0 g
  rw [fn_zero_smul, zero_add] at h0
  unfold ecmultMultiVarNull
  by_cases h : g = none ∧ l.length = 0
  · rw [if_pos h]
    obtain ⟨rfl, hl⟩ := h
    obtain rfl := List.length_eq_zero_iff.1 hl
    exact ⟨_, rfl, by simpa [fn_zero_smul] using gejInfinity_rep (7 : Fp)⟩
  · rw [if_neg h]
    by_cases hl : l.length = 0
    · rw [if_pos hl]
      obtain rfl := List.length_eq_zero_iff.1 hl
      exact ⟨_, rfl, by simpa using h0⟩
    · rw [if_neg hl, ecmultMultiSimpleVar]
      obtain ⟨r, e, hr⟩ := multiSimpleLoop_rep l 0 _ _ hc h0
      exact ⟨r, e, by rw [add_comm]; exact hr⟩

end Secp
