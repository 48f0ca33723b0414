import Verif.Model.VerifyScalar
import Verif.Proof.Scalar4x64Mul
import Verif.Proof.VerifyScalar

/-!
# The checks of a `VERIFY` build hold in the multiplication of scalars on 64-bit limbs
-/

namespace Secp.Model.Verify
open Secp Secp.Model.Acc

theorem check_true {b : Bool} (h : b = true) : check b = some () := by rw [h]; rfl

theorem bind_step {α β : Type} {x : Option α} {a : α} {f : α → Option β} {r : Option β} (h : x = some a)
    (k : f a = r) : (x >>= f) = r := by subst h; exact k

theorem muladdV_ok {c : Acc} {k w a b : ℕ} (hc : c.Ok k) (_ha : a < 2 ^ 64) (_hb : b < 2 ^ 64)
    (hw : k + 1 < 2 ^ w) : muladdV w c a b = some (c.muladd w a b) := by
  obtain ⟨h0, h1, h2⟩ := hc
  unfold muladdV muladd
  extract_lets t th tl c0 th' c1 c2
  have : (decide (c1 ≥ th') || decide (c2 ≠ 0)) = true := by
    rw [Bool.or_eq_true, decide_eq_true_eq, decide_eq_true_eq]
    by_cases h : c1 ≥ th'
    · exact .inl h
    · right
      have hb : bit (decide (c1 < th')) = 1 := by rw [decide_eq_true (by omega)]; rfl
      simp only [c2]
      rw [hb, Nat.mod_eq_of_lt (by omega)]
      omega
  rw [check_true this]
  rfl

theorem muladdFastV_ok {c : Acc} {k a b : ℕ} (hc : c.Ok k) (ha : a < 2 ^ 64) (hb : b < 2 ^ 64)
    (hw : c.c0 + c.c1 * 2 ^ 64 + a * b < 2 ^ 128) : muladdFastV c a b = some (c.muladdFast a b) := by
  have hs := (muladdFast_spec hc ha hb hw).2
  obtain ⟨h0, h1, h2⟩ := hc
  unfold muladdFastV
  unfold muladdFast Acc.val at hs
  unfold muladdFast
  extract_lets t th tl c0 th' c1 at hs ⊢
  have hc0 : c0 < 2 ^ 64 := Nat.mod_lt _ (by decide)
  have hc1 : c1 < 2 ^ 64 := Nat.mod_lt _ (by decide)
  have hth : th' < 2 ^ 64 := Nat.mod_lt _ (by decide)
  have e1 : c1 = (c.c1 + th') % 2 ^ 64 := rfl
  have htl : tl ≤ a * b := by
    simp only [tl, t, u128ToU64, u128Mul, u64]
    exact (Nat.mod_le _ _).trans (Nat.mod_le _ _)
  have : decide (c1 ≥ th') = true := by
    rw [decide_eq_true_eq]
    clear_value c0 th' tl
    simp only [] at hs
    by_contra hcon
    have : c.c1 + th' ≥ 2 ^ 64 := by
      by_contra hx
      rw [Nat.mod_eq_of_lt (by omega)] at e1
      omega
    have hP : a * b < 2 ^ 128 := by omega
    omega
  rw [check_true this]
  rfl

theorem sumaddFastV_ok {c : Acc} {a : ℕ} (hc : c.Ok 0) (ha : a < 2 ^ 64)
    (hw : c.c0 + c.c1 * 2 ^ 64 + a < 2 ^ 128) : sumaddFastV c a = some (c.sumaddFast a) := by
  obtain ⟨h0, h1, h2⟩ := hc
  unfold sumaddFastV sumaddFast
  extract_lets c0 c1
  have e0 : c0 = (c.c0 + a) % 2 ^ 64 := rfl
  have : (decide (c1 ≠ 0) || decide (c0 ≥ a)) = true := by
    rw [Bool.or_eq_true, decide_eq_true_eq, decide_eq_true_eq]
    by_cases h : c0 ≥ a
    · exact .inr h
    · left
      have hb : bit (decide (c0 < a)) = 1 := by rw [decide_eq_true (by omega)]; rfl
      simp only [c1, u64]
      rw [hb]
      clear_value c0
      omega
  rw [check_true this, check_true (decide_eq_true (by omega))]
  rfl

theorem extractFastV_ok {c : Acc} (hc : c.Ok 0) : extractFastV c = some c.extractFast := by
  have := hc.c2
  unfold extractFastV
  rw [check_true (decide_eq_true (by omega))]
  rfl

set_option exponentiation.threshold 600 in
theorem mul512V_ok {a b : Sc4} (ha : a.Words) (hb : b.Words) :
    mul512V a b = some (Sc4.mul512 a b) := by
  obtain ⟨hlt_a_d0, hlt_a_d1, hlt_a_d2, hlt_a_d3⟩ := ha
  obtain ⟨hlt_b_d0, hlt_b_d1, hlt_b_d2, hlt_b_d3⟩ := hb
  have q00 := prod_lt hlt_a_d0 hlt_b_d0
  have q01 := prod_lt hlt_a_d0 hlt_b_d1
  have q02 := prod_lt hlt_a_d0 hlt_b_d2
  have q03 := prod_lt hlt_a_d0 hlt_b_d3
  have q10 := prod_lt hlt_a_d1 hlt_b_d0
  have q11 := prod_lt hlt_a_d1 hlt_b_d1
  have q12 := prod_lt hlt_a_d1 hlt_b_d2
  have q13 := prod_lt hlt_a_d1 hlt_b_d3
  have q20 := prod_lt hlt_a_d2 hlt_b_d0
  have q21 := prod_lt hlt_a_d2 hlt_b_d1
  have q22 := prod_lt hlt_a_d2 hlt_b_d2
  have q23 := prod_lt hlt_a_d2 hlt_b_d3
  have q30 := prod_lt hlt_a_d3 hlt_b_d0
  have q31 := prod_lt hlt_a_d3 hlt_b_d1
  have q32 := prod_lt hlt_a_d3 hlt_b_d2
  have q33 := prod_lt hlt_a_d3 hlt_b_d3
  obtain ⟨r, hr⟩ : ∃ r, Sc4.mul512 a b = r := ⟨_, rfl⟩
  rw [hr]
  unfold Sc4.mul512 at hr
  extract_lets c0 c1 xl0 c2 c3 c4 xl1 c5 c6 c7 c8 xl2 c9 c10 c11 c12 c13 xl3 c14 c15 c16 c17 xl4 c18 c19 c20 xl5 c21 c22 xl6 c23 xl7 at hr
  have ok0 : c0.Ok 0 :=
    ⟨by simp only [c0]; omega, by simp only [c0]; omega, by simp only [c0]; omega⟩
  have v0 : c0.val = 0 := by simp only [c0, Acc.val]; omega
  have e0 : c0 = ⟨0, 0, 0⟩ := rfl
  clear_value c0
  obtain ⟨ok1, v1⟩ : c1.Ok 0 ∧ c1.val = c0.val + a.d0 * b.d0 :=
    muladdFast_spec ok0 hlt_a_d0 hlt_b_d0 (by have := val_of_ok ok0; omega)
  have h1 : muladdFastV c0 a.d0 b.d0 = some c1 :=
    muladdFastV_ok ok0 hlt_a_d0 hlt_b_d0 (by have := val_of_ok ok0; omega)
  clear_value c1
  obtain ⟨ok2, v2, z2⟩ : c2.Ok 0 ∧ c1.val = c1.c0 + 2 ^ 64 * c2.val ∧ c2.c1 = 0 :=
    extractFast_spec ok1
  have h2 : extractFastV c1 = some c2 :=
    extractFastV_ok ok1
  clear_value c2
  obtain ⟨ok3, v3⟩ : c3.Ok 1 ∧ c3.val = c2.val + a.d0 * b.d1 :=
    muladd_spec ok2 hlt_a_d0 hlt_b_d1 (by norm_num)
  have h3 : muladdV 32 c2 a.d0 b.d1 = some c3 :=
    muladdV_ok ok2 hlt_a_d0 hlt_b_d1 (by norm_num)
  clear_value c3
  obtain ⟨ok4, v4⟩ : c4.Ok 2 ∧ c4.val = c3.val + a.d1 * b.d0 :=
    muladd_spec ok3 hlt_a_d1 hlt_b_d0 (by norm_num)
  have h4 : muladdV 32 c3 a.d1 b.d0 = some c4 :=
    muladdV_ok ok3 hlt_a_d1 hlt_b_d0 (by norm_num)
  clear_value c4
  obtain ⟨ok5, v5⟩ : c5.Ok 0 ∧ c4.val = c4.c0 + 2 ^ 64 * c5.val := extract_spec ok4 (by norm_num)
  have h5 : c4.extract = c5 := rfl
  clear_value c5
  obtain ⟨ok6, v6⟩ : c6.Ok 1 ∧ c6.val = c5.val + a.d0 * b.d2 :=
    muladd_spec ok5 hlt_a_d0 hlt_b_d2 (by norm_num)
  have h6 : muladdV 32 c5 a.d0 b.d2 = some c6 :=
    muladdV_ok ok5 hlt_a_d0 hlt_b_d2 (by norm_num)
  clear_value c6
  obtain ⟨ok7, v7⟩ : c7.Ok 2 ∧ c7.val = c6.val + a.d1 * b.d1 :=
    muladd_spec ok6 hlt_a_d1 hlt_b_d1 (by norm_num)
  have h7 : muladdV 32 c6 a.d1 b.d1 = some c7 :=
    muladdV_ok ok6 hlt_a_d1 hlt_b_d1 (by norm_num)
  clear_value c7
  obtain ⟨ok8, v8⟩ : c8.Ok 3 ∧ c8.val = c7.val + a.d2 * b.d0 :=
    muladd_spec ok7 hlt_a_d2 hlt_b_d0 (by norm_num)
  have h8 : muladdV 32 c7 a.d2 b.d0 = some c8 :=
    muladdV_ok ok7 hlt_a_d2 hlt_b_d0 (by norm_num)
  clear_value c8
  obtain ⟨ok9, v9⟩ : c9.Ok 0 ∧ c8.val = c8.c0 + 2 ^ 64 * c9.val := extract_spec ok8 (by norm_num)
  have h9 : c8.extract = c9 := rfl
  clear_value c9
  obtain ⟨ok10, v10⟩ : c10.Ok 1 ∧ c10.val = c9.val + a.d0 * b.d3 :=
    muladd_spec ok9 hlt_a_d0 hlt_b_d3 (by norm_num)
  have h10 : muladdV 32 c9 a.d0 b.d3 = some c10 :=
    muladdV_ok ok9 hlt_a_d0 hlt_b_d3 (by norm_num)
  clear_value c10
  obtain ⟨ok11, v11⟩ : c11.Ok 2 ∧ c11.val = c10.val + a.d1 * b.d2 :=
    muladd_spec ok10 hlt_a_d1 hlt_b_d2 (by norm_num)
  have h11 : muladdV 32 c10 a.d1 b.d2 = some c11 :=
    muladdV_ok ok10 hlt_a_d1 hlt_b_d2 (by norm_num)
  clear_value c11
  obtain ⟨ok12, v12⟩ : c12.Ok 3 ∧ c12.val = c11.val + a.d2 * b.d1 :=
    muladd_spec ok11 hlt_a_d2 hlt_b_d1 (by norm_num)
  have h12 : muladdV 32 c11 a.d2 b.d1 = some c12 :=
    muladdV_ok ok11 hlt_a_d2 hlt_b_d1 (by norm_num)
  clear_value c12
  obtain ⟨ok13, v13⟩ : c13.Ok 4 ∧ c13.val = c12.val + a.d3 * b.d0 :=
    muladd_spec ok12 hlt_a_d3 hlt_b_d0 (by norm_num)
  have h13 : muladdV 32 c12 a.d3 b.d0 = some c13 :=
    muladdV_ok ok12 hlt_a_d3 hlt_b_d0 (by norm_num)
  clear_value c13
  obtain ⟨ok14, v14⟩ : c14.Ok 0 ∧ c13.val = c13.c0 + 2 ^ 64 * c14.val :=
    extract_spec ok13 (by norm_num)
  have h14 : c13.extract = c14 := rfl
  clear_value c14
  obtain ⟨ok15, v15⟩ : c15.Ok 1 ∧ c15.val = c14.val + a.d1 * b.d3 :=
    muladd_spec ok14 hlt_a_d1 hlt_b_d3 (by norm_num)
  have h15 : muladdV 32 c14 a.d1 b.d3 = some c15 :=
    muladdV_ok ok14 hlt_a_d1 hlt_b_d3 (by norm_num)
  clear_value c15
  obtain ⟨ok16, v16⟩ : c16.Ok 2 ∧ c16.val = c15.val + a.d2 * b.d2 :=
    muladd_spec ok15 hlt_a_d2 hlt_b_d2 (by norm_num)
  have h16 : muladdV 32 c15 a.d2 b.d2 = some c16 :=
    muladdV_ok ok15 hlt_a_d2 hlt_b_d2 (by norm_num)
  clear_value c16
  obtain ⟨ok17, v17⟩ : c17.Ok 3 ∧ c17.val = c16.val + a.d3 * b.d1 :=
    muladd_spec ok16 hlt_a_d3 hlt_b_d1 (by norm_num)
  have h17 : muladdV 32 c16 a.d3 b.d1 = some c17 :=
    muladdV_ok ok16 hlt_a_d3 hlt_b_d1 (by norm_num)
  clear_value c17
  obtain ⟨ok18, v18⟩ : c18.Ok 0 ∧ c17.val = c17.c0 + 2 ^ 64 * c18.val :=
    extract_spec ok17 (by norm_num)
  have h18 : c17.extract = c18 := rfl
  clear_value c18
  obtain ⟨ok19, v19⟩ : c19.Ok 1 ∧ c19.val = c18.val + a.d2 * b.d3 :=
    muladd_spec ok18 hlt_a_d2 hlt_b_d3 (by norm_num)
  have h19 : muladdV 32 c18 a.d2 b.d3 = some c19 :=
    muladdV_ok ok18 hlt_a_d2 hlt_b_d3 (by norm_num)
  clear_value c19
  obtain ⟨ok20, v20⟩ : c20.Ok 2 ∧ c20.val = c19.val + a.d3 * b.d2 :=
    muladd_spec ok19 hlt_a_d3 hlt_b_d2 (by norm_num)
  have h20 : muladdV 32 c19 a.d3 b.d2 = some c20 :=
    muladdV_ok ok19 hlt_a_d3 hlt_b_d2 (by norm_num)
  clear_value c20
  obtain ⟨ok21, v21⟩ : c21.Ok 0 ∧ c20.val = c20.c0 + 2 ^ 64 * c21.val :=
    extract_spec ok20 (by norm_num)
  have h21 : c20.extract = c21 := rfl
  clear_value c21
  obtain ⟨ok22, v22⟩ : c22.Ok 0 ∧ c22.val = c21.val + a.d3 * b.d3 :=
    muladdFast_spec ok21 hlt_a_d3 hlt_b_d3 (by have := val_of_ok ok21; omega)
  have h22 : muladdFastV c21 a.d3 b.d3 = some c22 :=
    muladdFastV_ok ok21 hlt_a_d3 hlt_b_d3 (by have := val_of_ok ok21; omega)
  clear_value c22
  obtain ⟨ok23, v23, z23⟩ : c23.Ok 0 ∧ c22.val = c22.c0 + 2 ^ 64 * c23.val ∧ c23.c1 = 0 :=
    extractFast_spec ok22
  have h23 : extractFastV c22 = some c23 :=
    extractFastV_ok ok22
  clear_value c23
  subst hr
  subst e0
  unfold mul512V
  subst h5 h9 h14 h18 h21
  refine bind_step h1 ?_
  refine bind_step h2 ?_
  refine bind_step h3 ?_
  refine bind_step h4 ?_
  refine bind_step h6 ?_
  refine bind_step h7 ?_
  refine bind_step h8 ?_
  refine bind_step h10 ?_
  refine bind_step h11 ?_
  refine bind_step h12 ?_
  refine bind_step h13 ?_
  refine bind_step h15 ?_
  refine bind_step h16 ?_
  refine bind_step h17 ?_
  refine bind_step h19 ?_
  refine bind_step h20 ?_
  refine bind_step h22 ?_
  refine bind_step h23 ?_
  exact bind_step (check_true (decide_eq_true z23)) rfl

set_option exponentiation.threshold 600 in
theorem reduce512aV_ok {l : U512} (hl : l.Words) : reduce512aV l = some (Sc4.reduce512a l) := by
  obtain ⟨hlt_l_l0, hlt_l_l1, hlt_l_l2, hlt_l_l3, hlt_n0, hlt_n1, hlt_n2, hlt_n3⟩ := hl
  have hlt_scNC0 : scNC0 < 2 ^ 64 := by decide
  have hlt_scNC1 : scNC1 < 2 ^ 64 := by decide
  have eNC0 := scNC0_eq
  have eNC1 := scNC1_eq
  obtain ⟨r', hr⟩ : ∃ r', r' = Sc4.reduce512a l := ⟨_, rfl⟩
  rw [← hr]
  unfold Sc4.reduce512a at hr
  extract_lets xn0 xn1 xn2 xn3 c0 c1 xm0 c2 c3 c4 c5 xm1 c6 c7 c8 c9 c10 xm2 c11 c12 c13 c14 c15 xm3 c16 c17 c18 xm4 c19 c20 xm5 c21 xm6 at hr
  have ok0 : c0.Ok 0 :=
    ⟨by simp only [c0]; omega, by simp only [c0]; omega, by simp only [c0]; omega⟩
  have v0 : c0.val = l.l0 := by simp only [c0, Acc.val]; omega
  have e0 : c0 = ⟨l.l0, 0, 0⟩ := rfl
  clear_value c0
  obtain ⟨ok1, v1⟩ : c1.Ok 0 ∧ c1.val = c0.val + l.l4 * 0x402DA1732FC9BEBF :=
    muladdFast_spec (a := l.l4) (b := 0x402DA1732FC9BEBF) ok0 hlt_n0 (by norm_num) (by have := val_of_ok ok0; omega)
  have h1 : muladdFastV c0 l.l4 scNC0 = some c1 :=
    muladdFastV_ok (a := l.l4) (b := 0x402DA1732FC9BEBF) ok0 hlt_n0 (by norm_num) (by have := val_of_ok ok0; omega)
  clear_value c1
  obtain ⟨ok2, v2, z2⟩ : c2.Ok 0 ∧ c1.val = c1.c0 + 2 ^ 64 * c2.val ∧ c2.c1 = 0 :=
    extractFast_spec ok1
  have h2 : extractFastV c1 = some c2 :=
    extractFastV_ok ok1
  clear_value c2
  obtain ⟨ok3, v3⟩ : c3.Ok 0 ∧ c3.val = c2.val + l.l1 :=
    sumaddFast_spec ok2 hlt_l_l1 (by have := val_of_ok ok2; omega)
  have h3 : sumaddFastV c2 l.l1 = some c3 :=
    sumaddFastV_ok ok2 hlt_l_l1 (by have := val_of_ok ok2; omega)
  clear_value c3
  obtain ⟨ok4, v4⟩ : c4.Ok 1 ∧ c4.val = c3.val + l.l5 * 0x402DA1732FC9BEBF :=
    muladd_spec ok3 hlt_n1 hlt_scNC0 (by norm_num)
  have h4 : muladdV 64 c3 l.l5 scNC0 = some c4 :=
    muladdV_ok ok3 hlt_n1 hlt_scNC0 (by norm_num)
  clear_value c4
  obtain ⟨ok5, v5⟩ : c5.Ok 2 ∧ c5.val = c4.val + l.l4 * 0x4551231950B75FC4 :=
    muladd_spec ok4 hlt_n0 hlt_scNC1 (by norm_num)
  have h5 : muladdV 64 c4 l.l4 scNC1 = some c5 :=
    muladdV_ok ok4 hlt_n0 hlt_scNC1 (by norm_num)
  clear_value c5
  obtain ⟨ok6, v6⟩ : c6.Ok 0 ∧ c5.val = c5.c0 + 2 ^ 64 * c6.val := extract_spec ok5 (by norm_num)
  have h6 : c5.extract = c6 := rfl
  clear_value c6
  obtain ⟨ok7, v7⟩ : c7.Ok 1 ∧ c7.val = c6.val + l.l2 := sumadd_spec ok6 hlt_l_l2 (by norm_num)
  have h7 : c6.sumadd 64 l.l2 = c7 := rfl
  clear_value c7
  obtain ⟨ok8, v8⟩ : c8.Ok 2 ∧ c8.val = c7.val + l.l6 * 0x402DA1732FC9BEBF :=
    muladd_spec ok7 hlt_n2 hlt_scNC0 (by norm_num)
  have h8 : muladdV 64 c7 l.l6 scNC0 = some c8 :=
    muladdV_ok ok7 hlt_n2 hlt_scNC0 (by norm_num)
  clear_value c8
  obtain ⟨ok9, v9⟩ : c9.Ok 3 ∧ c9.val = c8.val + l.l5 * 0x4551231950B75FC4 :=
    muladd_spec ok8 hlt_n1 hlt_scNC1 (by norm_num)
  have h9 : muladdV 64 c8 l.l5 scNC1 = some c9 :=
    muladdV_ok ok8 hlt_n1 hlt_scNC1 (by norm_num)
  clear_value c9
  obtain ⟨ok10, v10⟩ : c10.Ok 4 ∧ c10.val = c9.val + l.l4 := sumadd_spec ok9 hlt_n0 (by norm_num)
  have h10 : c9.sumadd 64 l.l4 = c10 := rfl
  clear_value c10
  obtain ⟨ok11, v11⟩ : c11.Ok 0 ∧ c10.val = c10.c0 + 2 ^ 64 * c11.val :=
    extract_spec ok10 (by norm_num)
  have h11 : c10.extract = c11 := rfl
  clear_value c11
  obtain ⟨ok12, v12⟩ : c12.Ok 1 ∧ c12.val = c11.val + l.l3 :=
    sumadd_spec ok11 hlt_l_l3 (by norm_num)
  have h12 : c11.sumadd 64 l.l3 = c12 := rfl
  clear_value c12
  obtain ⟨ok13, v13⟩ : c13.Ok 2 ∧ c13.val = c12.val + l.l7 * 0x402DA1732FC9BEBF :=
    muladd_spec ok12 hlt_n3 hlt_scNC0 (by norm_num)
  have h13 : muladdV 64 c12 l.l7 scNC0 = some c13 :=
    muladdV_ok ok12 hlt_n3 hlt_scNC0 (by norm_num)
  clear_value c13
  obtain ⟨ok14, v14⟩ : c14.Ok 3 ∧ c14.val = c13.val + l.l6 * 0x4551231950B75FC4 :=
    muladd_spec ok13 hlt_n2 hlt_scNC1 (by norm_num)
  have h14 : muladdV 64 c13 l.l6 scNC1 = some c14 :=
    muladdV_ok ok13 hlt_n2 hlt_scNC1 (by norm_num)
  clear_value c14
  obtain ⟨ok15, v15⟩ : c15.Ok 4 ∧ c15.val = c14.val + l.l5 :=
    sumadd_spec ok14 hlt_n1 (by norm_num)
  have h15 : c14.sumadd 64 l.l5 = c15 := rfl
  clear_value c15
  obtain ⟨ok16, v16⟩ : c16.Ok 0 ∧ c15.val = c15.c0 + 2 ^ 64 * c16.val :=
    extract_spec ok15 (by norm_num)
  have h16 : c15.extract = c16 := rfl
  clear_value c16
  obtain ⟨ok17, v17⟩ : c17.Ok 1 ∧ c17.val = c16.val + l.l7 * 0x4551231950B75FC4 :=
    muladd_spec ok16 hlt_n3 hlt_scNC1 (by norm_num)
  have h17 : muladdV 64 c16 l.l7 scNC1 = some c17 :=
    muladdV_ok ok16 hlt_n3 hlt_scNC1 (by norm_num)
  clear_value c17
  obtain ⟨ok18, v18⟩ : c18.Ok 2 ∧ c18.val = c17.val + l.l6 :=
    sumadd_spec ok17 hlt_n2 (by norm_num)
  have h18 : c17.sumadd 64 l.l6 = c18 := rfl
  clear_value c18
  obtain ⟨ok19, v19⟩ : c19.Ok 0 ∧ c18.val = c18.c0 + 2 ^ 64 * c19.val :=
    extract_spec ok18 (by norm_num)
  have h19 : c18.extract = c19 := rfl
  clear_value c19
  obtain ⟨ok20, v20⟩ : c20.Ok 0 ∧ c20.val = c19.val + l.l7 :=
    sumaddFast_spec ok19 hlt_n3 (by have := val_of_ok ok19; omega)
  have h20 : sumaddFastV c19 l.l7 = some c20 :=
    sumaddFastV_ok ok19 hlt_n3 (by have := val_of_ok ok19; omega)
  clear_value c20
  obtain ⟨ok21, v21, z21⟩ : c21.Ok 0 ∧ c20.val = c20.c0 + 2 ^ 64 * c21.val ∧ c21.c1 = 0 :=
    extractFast_spec ok20
  have h21 : extractFastV c20 = some c21 :=
    extractFastV_ok ok20
  clear_value c21
  have k21 := val_of_ok ok21
  subst hr
  have e6 : c21.c0 ≤ 1 := by
    clear h1 h3 h4
    rw [eNC0] at *
    rw [eNC1] at *
    omega
  subst e0
  unfold reduce512aV
  subst h6 h7 h10 h11 h12 h15 h16 h18 h19
  refine bind_step h1 ?_
  refine bind_step h2 ?_
  refine bind_step h3 ?_
  refine bind_step h4 ?_
  refine bind_step h5 ?_
  refine bind_step h8 ?_
  refine bind_step h9 ?_
  refine bind_step h13 ?_
  refine bind_step h14 ?_
  refine bind_step h17 ?_
  refine bind_step h20 ?_
  refine bind_step h21 ?_
  exact bind_step (check_true (decide_eq_true e6)) rfl

set_option exponentiation.threshold 600 in
theorem reduce512bV_ok {m : Red1} (hlt_m_m0 : m.m0 < 2 ^ 64) (hlt_m_m1 : m.m1 < 2 ^ 64)
    (hlt_m_m2 : m.m2 < 2 ^ 64) (hlt_m_m3 : m.m3 < 2 ^ 64) (hlt_m_m4 : m.m4 < 2 ^ 64)
    (hlt_m_m5 : m.m5 < 2 ^ 64) (hm6 : m.m6 ≤ 1)
    (hm : m.m4 + m.m5 * 2 ^ 64 + m.m6 * 2 ^ 128 ≤ 2 ^ 256 - n) :
    reduce512bV m = some (Sc4.reduce512b m) := by
  have hlt_m_m6 : m.m6 < 2 ^ 64 := by omega
  rw [Sc4.n_lit] at hm
  have hlt_scNC0 : scNC0 < 2 ^ 64 := by decide
  have hlt_scNC1 : scNC1 < 2 ^ 64 := by decide
  have eNC0 := scNC0_eq
  have eNC1 := scNC1_eq
  obtain ⟨r', hr⟩ : ∃ r', r' = Sc4.reduce512b m := ⟨_, rfl⟩
  rw [← hr]
  unfold Sc4.reduce512b at hr
  extract_lets c0 c1 xp0 c2 c3 c4 c5 xp1 c6 c7 c8 c9 c10 xp2 c11 c12 c13 c14 xp3 c15 xp4 at hr
  have ok0 : c0.Ok 0 :=
    ⟨by simp only [c0]; omega, by simp only [c0]; omega, by simp only [c0]; omega⟩
  have v0 : c0.val = m.m0 := by simp only [c0, Acc.val]; omega
  have e0 : c0 = ⟨m.m0, 0, 0⟩ := rfl
  clear_value c0
  obtain ⟨ok1, v1⟩ : c1.Ok 0 ∧ c1.val = c0.val + m.m4 * 0x402DA1732FC9BEBF :=
    muladdFast_spec (a := m.m4) (b := 0x402DA1732FC9BEBF) ok0 hlt_m_m4 (by norm_num) (by have := val_of_ok ok0; omega)
  have h1 : muladdFastV c0 m.m4 scNC0 = some c1 :=
    muladdFastV_ok (a := m.m4) (b := 0x402DA1732FC9BEBF) ok0 hlt_m_m4 (by norm_num) (by have := val_of_ok ok0; omega)
  clear_value c1
  obtain ⟨ok2, v2, z2⟩ : c2.Ok 0 ∧ c1.val = c1.c0 + 2 ^ 64 * c2.val ∧ c2.c1 = 0 :=
    extractFast_spec ok1
  have h2 : extractFastV c1 = some c2 :=
    extractFastV_ok ok1
  clear_value c2
  obtain ⟨ok3, v3⟩ : c3.Ok 0 ∧ c3.val = c2.val + m.m1 :=
    sumaddFast_spec ok2 hlt_m_m1 (by have := val_of_ok ok2; omega)
  have h3 : sumaddFastV c2 m.m1 = some c3 :=
    sumaddFastV_ok ok2 hlt_m_m1 (by have := val_of_ok ok2; omega)
  clear_value c3
  obtain ⟨ok4, v4⟩ : c4.Ok 1 ∧ c4.val = c3.val + m.m5 * 0x402DA1732FC9BEBF :=
    muladd_spec ok3 hlt_m_m5 hlt_scNC0 (by norm_num)
  have h4 : muladdV 64 c3 m.m5 scNC0 = some c4 :=
    muladdV_ok ok3 hlt_m_m5 hlt_scNC0 (by norm_num)
  clear_value c4
  obtain ⟨ok5, v5⟩ : c5.Ok 2 ∧ c5.val = c4.val + m.m4 * 0x4551231950B75FC4 :=
    muladd_spec ok4 hlt_m_m4 hlt_scNC1 (by norm_num)
  have h5 : muladdV 64 c4 m.m4 scNC1 = some c5 :=
    muladdV_ok ok4 hlt_m_m4 hlt_scNC1 (by norm_num)
  clear_value c5
  obtain ⟨ok6, v6⟩ : c6.Ok 0 ∧ c5.val = c5.c0 + 2 ^ 64 * c6.val := extract_spec ok5 (by norm_num)
  have h6 : c5.extract = c6 := rfl
  clear_value c6
  obtain ⟨ok7, v7⟩ : c7.Ok 1 ∧ c7.val = c6.val + m.m2 := sumadd_spec ok6 hlt_m_m2 (by norm_num)
  have h7 : c6.sumadd 64 m.m2 = c7 := rfl
  clear_value c7
  obtain ⟨ok8, v8⟩ : c8.Ok 2 ∧ c8.val = c7.val + m.m6 * 0x402DA1732FC9BEBF :=
    muladd_spec ok7 hlt_m_m6 hlt_scNC0 (by norm_num)
  have h8 : muladdV 64 c7 m.m6 scNC0 = some c8 :=
    muladdV_ok ok7 hlt_m_m6 hlt_scNC0 (by norm_num)
  clear_value c8
  obtain ⟨ok9, v9⟩ : c9.Ok 3 ∧ c9.val = c8.val + m.m5 * 0x4551231950B75FC4 :=
    muladd_spec ok8 hlt_m_m5 hlt_scNC1 (by norm_num)
  have h9 : muladdV 64 c8 m.m5 scNC1 = some c9 :=
    muladdV_ok ok8 hlt_m_m5 hlt_scNC1 (by norm_num)
  clear_value c9
  obtain ⟨ok10, v10⟩ : c10.Ok 4 ∧ c10.val = c9.val + m.m4 :=
    sumadd_spec ok9 hlt_m_m4 (by norm_num)
  have h10 : c9.sumadd 64 m.m4 = c10 := rfl
  clear_value c10
  obtain ⟨ok11, v11⟩ : c11.Ok 0 ∧ c10.val = c10.c0 + 2 ^ 64 * c11.val :=
    extract_spec ok10 (by norm_num)
  have h11 : c10.extract = c11 := rfl
  clear_value c11
  obtain ⟨ok12, v12⟩ : c12.Ok 0 ∧ c12.val = c11.val + m.m3 :=
    sumaddFast_spec ok11 hlt_m_m3 (by have := val_of_ok ok11; omega)
  have h12 : sumaddFastV c11 m.m3 = some c12 :=
    sumaddFastV_ok ok11 hlt_m_m3 (by have := val_of_ok ok11; omega)
  clear_value c12
  obtain ⟨ok13, v13⟩ : c13.Ok 0 ∧ c13.val = c12.val + m.m6 * 0x4551231950B75FC4 :=
    muladdFast_spec (a := m.m6) (b := 0x4551231950B75FC4) ok12 hlt_m_m6 (by norm_num) (by have := val_of_ok ok12; omega)
  have h13 : muladdFastV c12 m.m6 scNC1 = some c13 :=
    muladdFastV_ok (a := m.m6) (b := 0x4551231950B75FC4) ok12 hlt_m_m6 (by norm_num) (by have := val_of_ok ok12; omega)
  clear_value c13
  obtain ⟨ok14, v14⟩ : c14.Ok 0 ∧ c14.val = c13.val + m.m5 :=
    sumaddFast_spec ok13 hlt_m_m5 (by have := val_of_ok ok13; omega)
  have h14 : sumaddFastV c13 m.m5 = some c14 :=
    sumaddFastV_ok ok13 hlt_m_m5 (by have := val_of_ok ok13; omega)
  clear_value c14
  obtain ⟨ok15, v15, z15⟩ : c15.Ok 0 ∧ c14.val = c14.c0 + 2 ^ 64 * c15.val ∧ c15.c1 = 0 :=
    extractFast_spec ok14
  have h15 : extractFastV c14 = some c15 :=
    extractFastV_ok ok14
  clear_value c15
  have k15 := val_of_ok ok15
  subst hr
  have e6 : u64 (c15.c0 + m.m6) % 2 ^ 32 ≤ 2 := by
    have h6' : c15.c0 + m.m6 ≤ 2 := by omega
    exact (Nat.mod_le _ _).trans ((Nat.mod_le _ _).trans h6')
  subst e0
  unfold reduce512bV
  subst h6 h7 h10 h11
  refine bind_step h1 ?_
  refine bind_step h2 ?_
  refine bind_step h3 ?_
  refine bind_step h4 ?_
  refine bind_step h5 ?_
  refine bind_step h8 ?_
  refine bind_step h9 ?_
  refine bind_step h12 ?_
  refine bind_step h13 ?_
  refine bind_step h14 ?_
  refine bind_step h15 ?_
  exact bind_step (check_true (decide_eq_true e6)) rfl

open Sc4

theorem scVerify_ok {a : Sc4} (ha : a.Words) (h : a.nat < n) : scVerify a = some () := by
  have : a.checkOverflow = false := by
    rw [Bool.eq_false_iff]
    intro hc
    have := (checkOverflow_iff ha).1 hc
    omega
  unfold scVerify
  rw [this]
  rfl

theorem scReduceV_ok {r : Sc4} {c : ℕ} (hr : r.Words) (h : r.nat + c * 2 ^ 256 < 2 * n) :
    scReduceV r (c + bit r.checkOverflow) = some (r.reduce (c + bit r.checkOverflow)) := by
  obtain ⟨f1, -, f2, f3⟩ := reduce_final hr h
  refine bind_step (check_true (decide_eq_true f1)) ?_
  refine bind_step (scVerify_ok f2 ?_) rfl
  rw [f3]
  exact Nat.mod_lt _ (by unfold n; decide)

theorem reduce512V_ok {l : U512} (hl : l.Words) : reduce512V l = some (Sc4.reduce512 l) := by
  obtain ⟨a0, a1, a2, a3, a4, a5, a6, ea⟩ := reduce512a_spec hl
  have hhi : l.l4 + l.l5 * 2 ^ 64 + l.l6 * 2 ^ 128 + l.l7 * 2 ^ 192 ≤ 2 ^ 256 - 1 := by
    obtain ⟨h0, h1, h2, h3, h4, h5, h6, h7⟩ := hl
    omega
  have hM : (reduce512a l).m4 + (reduce512a l).m5 * 2 ^ 64 + (reduce512a l).m6 * 2 ^ 128 ≤
      2 ^ 256 - n := by
    obtain ⟨h0, h1, h2, h3, h4, h5, h6, h7⟩ := hl
    unfold natM U512.nat at ea
    rw [n_lit] at *
    omega
  obtain ⟨b0, b1, b2, b3, b4, eb⟩ := reduce512b_spec a0 a1 a2 a3 a4 a5 a6 hM
  obtain ⟨cw, ec⟩ := reduce512c_spec b0 b1 b2 b3 b4
  have hlt : (reduce512c (reduce512b (reduce512a l))).1.nat +
      (reduce512c (reduce512b (reduce512a l))).2 * 2 ^ 256 < 2 * n := by
    unfold natP at ec
    rw [n_lit] at *
    omega
  obtain ⟨f1, -, f2, f3⟩ := reduce_final cw hlt
  have e : u64 ((reduce512c (reduce512b (reduce512a l))).2 +
      bit (reduce512c (reduce512b (reduce512a l))).1.checkOverflow) % 2 ^ 32 =
      (reduce512c (reduce512b (reduce512a l))).2 +
      bit (reduce512c (reduce512b (reduce512a l))).1.checkOverflow := by
    unfold u64
    omega
  refine bind_step (reduce512aV_ok hl) ?_
  refine bind_step (reduce512bV_ok a0 a1 a2 a3 a4 a5 a6 hM) ?_
  unfold reduce512
  simp only [e]
  exact scReduceV_ok cw hlt

end Secp.Model.Verify
