import Verif.Proof.Asm.ArmMain

/-!
# Calls of the ARM functions
-/

namespace Secp.Model.Arm
open Secp.Model.Fe10

theorem conc_init {E : Env} {two : W} (h0 : E.a = E.s.reg 1) (hsp : 84 ≤ E.s.reg 13) (h2 : E.s.reg 2 = E.w two) :
    Conc E (symInit two) E.s := by
  refine ⟨fun r w h => ?_, fun _ _ h => by simp [symInit] at h, fun _ _ h => by simp [symInit] at h,
    fun _ _ h => by simp [symInit] at h, fun _ _ _ => rfl, fun _ _ _ => rfl⟩
  have hr : r < 16 := by
    by_contra hr
    rw [List.getElem?_eq_none (show (symInit two).regs.length ≤ r by
      simp only [symInit, List.length_cons, List.length_nil]; omega)] at h
    simp at h
  interval_cases r
  all_goals
    simp only [symInit, List.getElem?_cons_zero, List.getElem?_cons_succ, Option.some.injEq] at h
    subst h
  · rfl
  · exact h0.symm
  · exact h2
  all_goals first | rfl | skip
  simp only [Env.w, Env.base]
  omega

/-- The end of a described run -/
theorem fin_call {E : Env} {q : ℕ → ℕ} (hV : E.V = colV q) (hq : q 18 ≤ 2 ^ 52) (hsp : 84 ≤ E.s.reg 13) {st : Sym}
    {s' : St} (c : Conc E st s') (h : st.fin = (finRegs, finOut)) :
    fe10At s'.mem (E.s.reg 0) = mulCols q ∧ Returns E.s s' := by
  simp only [Sym.fin, finOut, Prod.mk.injEq, List.map_cons, List.map_nil, List.cons.injEq, and_true] at h
  obtain ⟨hr, h0, h1, h2, h3, h4, h5, h6, h7, h8, h9⟩ := h
  constructor
  · have k : ∀ {o w}, st.out.lookup o = some w → s'.mem (E.s.reg 0 + o) = E.w w := fun h => (c.out _ _ h).2
    have lw : ∀ x, E.w (.f (.low x 26)) = colV q x % 2 ^ 26 := fun x => by
      rw [Env.w, f_low _ _ _ (by norm_num), hV]
    have e2 : E.w (.lo { shr := [(25, 26)], words := [.low 6 26] }) =
        u32 (u64 (colV q 25 >>> 26 + colV q 6 % 2 ^ 26)) := by
      simp only [Env.w, Env.sum, Env.shrs, Env.prods, Env.words, f_low _ _ 26 (by norm_num), hV, Nat.mul_zero,
        Nat.add_zero]
      rfl
    have e9 : E.w (.f (.low 20 22)) = colV q 20 % 2 ^ 22 := by rw [Env.w, f_low _ _ _ (by norm_num), hV]
    rw [mulCols_eq q (endD_lt hq)]
    simp only [fe10At]
    rw [show s'.mem (E.s.reg 0) = s'.mem (E.s.reg 0 + 0) from rfl, k h0, k h1, k h2, k h3, k h4, k h5, k h6, k h7,
      k h8, k h9]
    simp only [lw, e2, e9]
    rfl
  · have k : ∀ {r w}, finRegs[r]? = some w → s'.reg r = E.w w := fun h => c.reg _ _ (by rw [hr]; exact h)
    refine ⟨k (w := .init 14) rfl, ?_, fun r h4 h11 => ?_, fun x h1 h2 => c.mf x h2 h1⟩
    · rw [k (w := .ptr .stk 84) rfl]
      simp only [Env.w, Env.base]
      omega
    · interval_cases r
      · exact k (w := .init 4) rfl
      · exact k (w := .init 5) rfl
      · exact k (w := .init 6) rfl
      · exact k (w := .init 7) rfl
      · exact k (w := .init 8) rfl
      · exact k (w := .init 9) rfl
      · exact k (w := .init 10) rfl
      · exact k (w := .init 11) rfl

theorem mulInner_call {s : St} (h : Call s [0, 1, 2]) (ha : (fe10At s.mem (s.reg 1)).Bits)
    (hb : (fe10At s.mem (s.reg 2)).Bits) :
    fe10At (run s mulInner).mem (s.reg 0) = mul (fe10At s.mem (s.reg 1)) (fe10At s.mem (s.reg 2)) ∧
      Returns s (run s mulInner) := by
  obtain ⟨q, hq⟩ : ∃ q, q = mulProds (fe10At s.mem (s.reg 1)) (fe10At s.mem (s.reg 2)) := ⟨_, rfl⟩
  obtain ⟨st, h1, h2⟩ := Option.map_eq_some_iff.1 mul_sym
  have ok : Env.Ok ⟨s, s.reg 1, s.reg 2, colV q⟩ mulD := by
    refine ⟨⟨h.sp.1, h.reg 13⟩, fun g hg => ?_, fun g hg => ?_, h.reg, h.mem, mulD_V hq⟩
    · cases g
      · exact absurd rfl hg
      · exact (h.arr 1 (by simp)).1
      · exact (h.arr 2 (by simp)).1
      · exact (h.arr 0 (by simp)).1
    · cases g
      · exact absurd rfl hg
      · exact h.frame 1 (by simp)
      · exact h.frame 2 (by simp)
      · exact h.frame 0 (by simp)
  have c := (conc_init (E := ⟨s, s.reg 1, s.reg 2, colV q⟩) (two := .ptr .b 0) rfl h.sp.1 rfl).run ok _ h1
  have h18 : q 18 ≤ 2 ^ 52 := by rw [hq]; exact (mulProds_le ha hb).2.2
  obtain ⟨h3, h4⟩ := fin_call rfl h18 h.sp.1 c h2
  refine ⟨?_, h4⟩
  unfold mul
  rw [← hq]
  exact h3

theorem sqrInner_call {s : St} (h : Call s [0, 1]) (ha : (fe10At s.mem (s.reg 1)).Bits) :
    fe10At (run s sqrInner).mem (s.reg 0) = sqr (fe10At s.mem (s.reg 1)) ∧ Returns s (run s sqrInner) := by
  obtain ⟨q, hq⟩ : ∃ q, q = sqrProds (fe10At s.mem (s.reg 1)) := ⟨_, rfl⟩
  obtain ⟨st, h1, h2⟩ := Option.map_eq_some_iff.1 sqr_sym
  have ok : Env.Ok ⟨s, s.reg 1, s.reg 1, colV q⟩ sqrD := by
    refine ⟨⟨h.sp.1, h.reg 13⟩, fun g hg => ?_, fun g hg => ?_, h.reg, h.mem, sqrD_V hq⟩
    · cases g
      · exact absurd rfl hg
      · exact (h.arr 1 (by simp)).1
      · exact (h.arr 1 (by simp)).1
      · exact (h.arr 0 (by simp)).1
    · cases g
      · exact absurd rfl hg
      · exact h.frame 1 (by simp)
      · exact h.frame 1 (by simp)
      · exact h.frame 0 (by simp)
  have c := (conc_init (E := ⟨s, s.reg 1, s.reg 1, colV q⟩) (two := .init 2) rfl h.sp.1 rfl).run ok _ h1
  have h18 : q 18 ≤ 2 ^ 52 := by rw [hq]; exact le_trans (prod_le ha.n9 ha.n9) (by norm_num)
  obtain ⟨h3, h4⟩ := fin_call rfl h18 h.sp.1 c h2
  refine ⟨?_, h4⟩
  unfold sqr
  rw [← hq]
  exact h3

end Secp.Model.Arm
