import Verif.Proof.Scalar4x64

/-!
# Helper lemmas: multiplication of scalars on limbs
-/

namespace Secp
open Model

namespace Model.U512

/-- The number eight words stand for. -/
def nat (l : U512) : ℕ :=
  l.l0 + l.l1 * 2 ^ 64 + l.l2 * 2 ^ 128 + l.l3 * 2 ^ 192 + l.l4 * 2 ^ 256 + l.l5 * 2 ^ 320 +
    l.l6 * 2 ^ 384 + l.l7 * 2 ^ 448

/-- Every word fits. -/
structure Words (l : U512) : Prop where
  l0 : l.l0 < 2 ^ 64
  l1 : l.l1 < 2 ^ 64
  l2 : l.l2 < 2 ^ 64
  l3 : l.l3 < 2 ^ 64
  l4 : l.l4 < 2 ^ 64
  l5 : l.l5 < 2 ^ 64
  l6 : l.l6 < 2 ^ 64
  l7 : l.l7 < 2 ^ 64

end Model.U512

namespace Model.Sc4
open Acc

set_option exponentiation.threshold 600 in
theorem mul512_spec {a b : Sc4} (ha : a.Words) (hb : b.Words) :
    (mul512 a b).Words ∧ (mul512 a b).nat = a.nat * b.nat := by
  obtain ⟨hlt_a_d0, hlt_a_d1, hlt_a_d2, hlt_a_d3⟩ := ha
  obtain ⟨hlt_b_d0, hlt_b_d1, hlt_b_d2, hlt_b_d3⟩ := hb
  have q00 := prod_lt hlt_a_d0 hlt_b_d0
  have q01 := prod_lt hlt_a_d0 hlt_b_d1
  have q02 := prod_lt hlt_a_d0 hlt_b_d2
  have q03 := prod_lt hlt_a_d0 hlt_b_d3
  have q10 := prod_lt hlt_a_d1 hlt_b_d0
  have q11 := prod_lt hlt_a_d1 hlt_b_d1
  have q12 := prod_lt hlt_a_d1 hlt_b_d2
  have q13 := prod_lt hlt_a_d1 hlt_b_d3
  have q20 := prod_lt hlt_a_d2 hlt_b_d0
  have q21 := prod_lt hlt_a_d2 hlt_b_d1
  have q22 := prod_lt hlt_a_d2 hlt_b_d2
  have q23 := prod_lt hlt_a_d2 hlt_b_d3
  have q30 := prod_lt hlt_a_d3 hlt_b_d0
  have q31 := prod_lt hlt_a_d3 hlt_b_d1
  have q32 := prod_lt hlt_a_d3 hlt_b_d2
  have q33 := prod_lt hlt_a_d3 hlt_b_d3
  obtain ⟨r, hr⟩ : ∃ r, mul512 a b = r := ⟨_, rfl⟩
  rw [hr]
  unfold mul512 at hr
  extract_lets c0 c1 xl0 c2 c3 c4 xl1 c5 c6 c7 c8 xl2 c9 c10 c11 c12 c13 xl3 c14 c15 c16 c17 xl4 c18 c19 c20 xl5 c21 c22 xl6 c23 xl7 at hr
  have ok0 : c0.Ok 0 :=
    ⟨by simp only [c0]; omega, by simp only [c0]; omega, by simp only [c0]; omega⟩
  have v0 : c0.val = 0 := by simp only [c0, Acc.val]; omega
  clear_value c0
  obtain ⟨ok1, v1⟩ : c1.Ok 0 ∧ c1.val = c0.val + a.d0 * b.d0 :=
    muladdFast_spec ok0 hlt_a_d0 hlt_b_d0 (by have := val_of_ok ok0; omega)
  clear_value c1
  obtain ⟨ok2, v2, z2⟩ : c2.Ok 0 ∧ c1.val = c1.c0 + 2 ^ 64 * c2.val ∧ c2.c1 = 0 :=
    extractFast_spec ok1
  clear_value c2
  obtain ⟨ok3, v3⟩ : c3.Ok 1 ∧ c3.val = c2.val + a.d0 * b.d1 :=
    muladd_spec ok2 hlt_a_d0 hlt_b_d1 (by norm_num)
  clear_value c3
  obtain ⟨ok4, v4⟩ : c4.Ok 2 ∧ c4.val = c3.val + a.d1 * b.d0 :=
    muladd_spec ok3 hlt_a_d1 hlt_b_d0 (by norm_num)
  clear_value c4
  obtain ⟨ok5, v5⟩ : c5.Ok 0 ∧ c4.val = c4.c0 + 2 ^ 64 * c5.val := extract_spec ok4 (by norm_num)
  clear_value c5
  obtain ⟨ok6, v6⟩ : c6.Ok 1 ∧ c6.val = c5.val + a.d0 * b.d2 :=
    muladd_spec ok5 hlt_a_d0 hlt_b_d2 (by norm_num)
  clear_value c6
  obtain ⟨ok7, v7⟩ : c7.Ok 2 ∧ c7.val = c6.val + a.d1 * b.d1 :=
    muladd_spec ok6 hlt_a_d1 hlt_b_d1 (by norm_num)
  clear_value c7
  obtain ⟨ok8, v8⟩ : c8.Ok 3 ∧ c8.val = c7.val + a.d2 * b.d0 :=
    muladd_spec ok7 hlt_a_d2 hlt_b_d0 (by norm_num)
  clear_value c8
  obtain ⟨ok9, v9⟩ : c9.Ok 0 ∧ c8.val = c8.c0 + 2 ^ 64 * c9.val := extract_spec ok8 (by norm_num)
  clear_value c9
  obtain ⟨ok10, v10⟩ : c10.Ok 1 ∧ c10.val = c9.val + a.d0 * b.d3 :=
    muladd_spec ok9 hlt_a_d0 hlt_b_d3 (by norm_num)
  clear_value c10
  obtain ⟨ok11, v11⟩ : c11.Ok 2 ∧ c11.val = c10.val + a.d1 * b.d2 :=
    muladd_spec ok10 hlt_a_d1 hlt_b_d2 (by norm_num)
  clear_value c11
  obtain ⟨ok12, v12⟩ : c12.Ok 3 ∧ c12.val = c11.val + a.d2 * b.d1 :=
    muladd_spec ok11 hlt_a_d2 hlt_b_d1 (by norm_num)
  clear_value c12
  obtain ⟨ok13, v13⟩ : c13.Ok 4 ∧ c13.val = c12.val + a.d3 * b.d0 :=
    muladd_spec ok12 hlt_a_d3 hlt_b_d0 (by norm_num)
  clear_value c13
  obtain ⟨ok14, v14⟩ : c14.Ok 0 ∧ c13.val = c13.c0 + 2 ^ 64 * c14.val :=
    extract_spec ok13 (by norm_num)
  clear_value c14
  obtain ⟨ok15, v15⟩ : c15.Ok 1 ∧ c15.val = c14.val + a.d1 * b.d3 :=
    muladd_spec ok14 hlt_a_d1 hlt_b_d3 (by norm_num)
  clear_value c15
  obtain ⟨ok16, v16⟩ : c16.Ok 2 ∧ c16.val = c15.val + a.d2 * b.d2 :=
    muladd_spec ok15 hlt_a_d2 hlt_b_d2 (by norm_num)
  clear_value c16
  obtain ⟨ok17, v17⟩ : c17.Ok 3 ∧ c17.val = c16.val + a.d3 * b.d1 :=
    muladd_spec ok16 hlt_a_d3 hlt_b_d1 (by norm_num)
  clear_value c17
  obtain ⟨ok18, v18⟩ : c18.Ok 0 ∧ c17.val = c17.c0 + 2 ^ 64 * c18.val :=
    extract_spec ok17 (by norm_num)
  clear_value c18
  obtain ⟨ok19, v19⟩ : c19.Ok 1 ∧ c19.val = c18.val + a.d2 * b.d3 :=
    muladd_spec ok18 hlt_a_d2 hlt_b_d3 (by norm_num)
  clear_value c19
  obtain ⟨ok20, v20⟩ : c20.Ok 2 ∧ c20.val = c19.val + a.d3 * b.d2 :=
    muladd_spec ok19 hlt_a_d3 hlt_b_d2 (by norm_num)
  clear_value c20
  obtain ⟨ok21, v21⟩ : c21.Ok 0 ∧ c20.val = c20.c0 + 2 ^ 64 * c21.val :=
    extract_spec ok20 (by norm_num)
  clear_value c21
  obtain ⟨ok22, v22⟩ : c22.Ok 0 ∧ c22.val = c21.val + a.d3 * b.d3 :=
    muladdFast_spec ok21 hlt_a_d3 hlt_b_d3 (by have := val_of_ok ok21; omega)
  clear_value c22
  obtain ⟨ok23, v23, z23⟩ : c23.Ok 0 ∧ c22.val = c22.c0 + 2 ^ 64 * c23.val ∧ c23.c1 = 0 :=
    extractFast_spec ok22
  clear_value c23
  subst hr
  have k23 := val_of_ok ok23
  refine ⟨⟨ok1.c0, ok4.c0, ok8.c0, ok13.c0, ok17.c0, ok20.c0, ok22.c0, ok23.c0⟩, ?_⟩
  have e : a.nat * b.nat = a.d0 * b.d0 + (a.d0 * b.d1 + a.d1 * b.d0) * 2 ^ 64 +
      (a.d0 * b.d2 + a.d1 * b.d1 + a.d2 * b.d0) * 2 ^ 128 +
      (a.d0 * b.d3 + a.d1 * b.d2 + a.d2 * b.d1 + a.d3 * b.d0) * 2 ^ 192 +
      (a.d1 * b.d3 + a.d2 * b.d2 + a.d3 * b.d1) * 2 ^ 256 +
      (a.d2 * b.d3 + a.d3 * b.d2) * 2 ^ 320 + a.d3 * b.d3 * 2 ^ 384 := by
    unfold nat
    ring
  rw [e]
  unfold U512.nat
  simp only [xl0, xl1, xl2, xl3, xl4, xl5, xl6, xl7]
  clear e xl0 xl1 xl2 xl3 xl4 xl5 xl6 xl7
  omega

/-- The number the words `m0..m6` stand for. -/
def natM (m : Red1) : ℕ :=
  m.m0 + m.m1 * 2 ^ 64 + m.m2 * 2 ^ 128 + m.m3 * 2 ^ 192 + m.m4 * 2 ^ 256 + m.m5 * 2 ^ 320 +
    m.m6 * 2 ^ 384

theorem reduce512a_spec {l : U512} (hl : l.Words) :
    let m := reduce512a l
    m.m0 < 2 ^ 64 ∧ m.m1 < 2 ^ 64 ∧ m.m2 < 2 ^ 64 ∧ m.m3 < 2 ^ 64 ∧ m.m4 < 2 ^ 64 ∧
    m.m5 < 2 ^ 64 ∧ m.m6 ≤ 1 ∧
    natM m + (l.l4 + l.l5 * 2 ^ 64 + l.l6 * 2 ^ 128 + l.l7 * 2 ^ 192) * n = l.nat := by
  intro r
  obtain ⟨hlt_l_l0, hlt_l_l1, hlt_l_l2, hlt_l_l3, hlt_n0, hlt_n1, hlt_n2, hlt_n3⟩ := hl
  have hlt_scNC0 : scNC0 < 2 ^ 64 := by decide
  have hlt_scNC1 : scNC1 < 2 ^ 64 := by decide
  have eNC0 := scNC0_eq
  have eNC1 := scNC1_eq
  obtain ⟨r', hr⟩ : ∃ r', r' = r := ⟨_, rfl⟩
  rw [← hr]
  unfold r reduce512a at hr
  clear r
  extract_lets xn0 xn1 xn2 xn3 c0 c1 xm0 c2 c3 c4 c5 xm1 c6 c7 c8 c9 c10 xm2 c11 c12 c13 c14 c15 xm3 c16 c17 c18 xm4 c19 c20 xm5 c21 xm6 at hr
  have ok0 : c0.Ok 0 :=
    ⟨by simp only [c0]; omega, by simp only [c0]; omega, by simp only [c0]; omega⟩
  have v0 : c0.val = l.l0 := by simp only [c0, Acc.val]; omega
  clear_value c0
  obtain ⟨ok1, v1⟩ : c1.Ok 0 ∧ c1.val = c0.val + l.l4 * 0x402DA1732FC9BEBF :=
    muladdFast_spec (a := l.l4) (b := 0x402DA1732FC9BEBF) ok0 hlt_n0 (by norm_num) (by have := val_of_ok ok0; omega)
  clear_value c1
  obtain ⟨ok2, v2, z2⟩ : c2.Ok 0 ∧ c1.val = c1.c0 + 2 ^ 64 * c2.val ∧ c2.c1 = 0 :=
    extractFast_spec ok1
  clear_value c2
  obtain ⟨ok3, v3⟩ : c3.Ok 0 ∧ c3.val = c2.val + l.l1 :=
    sumaddFast_spec ok2 hlt_l_l1 (by have := val_of_ok ok2; omega)
  clear_value c3
  obtain ⟨ok4, v4⟩ : c4.Ok 1 ∧ c4.val = c3.val + l.l5 * 0x402DA1732FC9BEBF :=
    muladd_spec ok3 hlt_n1 hlt_scNC0 (by norm_num)
  clear_value c4
  obtain ⟨ok5, v5⟩ : c5.Ok 2 ∧ c5.val = c4.val + l.l4 * 0x4551231950B75FC4 :=
    muladd_spec ok4 hlt_n0 hlt_scNC1 (by norm_num)
  clear_value c5
  obtain ⟨ok6, v6⟩ : c6.Ok 0 ∧ c5.val = c5.c0 + 2 ^ 64 * c6.val := extract_spec ok5 (by norm_num)
  clear_value c6
  obtain ⟨ok7, v7⟩ : c7.Ok 1 ∧ c7.val = c6.val + l.l2 := sumadd_spec ok6 hlt_l_l2 (by norm_num)
  clear_value c7
  obtain ⟨ok8, v8⟩ : c8.Ok 2 ∧ c8.val = c7.val + l.l6 * 0x402DA1732FC9BEBF :=
    muladd_spec ok7 hlt_n2 hlt_scNC0 (by norm_num)
  clear_value c8
  obtain ⟨ok9, v9⟩ : c9.Ok 3 ∧ c9.val = c8.val + l.l5 * 0x4551231950B75FC4 :=
    muladd_spec ok8 hlt_n1 hlt_scNC1 (by norm_num)
  clear_value c9
  obtain ⟨ok10, v10⟩ : c10.Ok 4 ∧ c10.val = c9.val + l.l4 := sumadd_spec ok9 hlt_n0 (by norm_num)
  clear_value c10
  obtain ⟨ok11, v11⟩ : c11.Ok 0 ∧ c10.val = c10.c0 + 2 ^ 64 * c11.val :=
    extract_spec ok10 (by norm_num)
  clear_value c11
  obtain ⟨ok12, v12⟩ : c12.Ok 1 ∧ c12.val = c11.val + l.l3 :=
    sumadd_spec ok11 hlt_l_l3 (by norm_num)
  clear_value c12
  obtain ⟨ok13, v13⟩ : c13.Ok 2 ∧ c13.val = c12.val + l.l7 * 0x402DA1732FC9BEBF :=
    muladd_spec ok12 hlt_n3 hlt_scNC0 (by norm_num)
  clear_value c13
  obtain ⟨ok14, v14⟩ : c14.Ok 3 ∧ c14.val = c13.val + l.l6 * 0x4551231950B75FC4 :=
    muladd_spec ok13 hlt_n2 hlt_scNC1 (by norm_num)
  clear_value c14
  obtain ⟨ok15, v15⟩ : c15.Ok 4 ∧ c15.val = c14.val + l.l5 :=
    sumadd_spec ok14 hlt_n1 (by norm_num)
  clear_value c15
  obtain ⟨ok16, v16⟩ : c16.Ok 0 ∧ c15.val = c15.c0 + 2 ^ 64 * c16.val :=
    extract_spec ok15 (by norm_num)
  clear_value c16
  obtain ⟨ok17, v17⟩ : c17.Ok 1 ∧ c17.val = c16.val + l.l7 * 0x4551231950B75FC4 :=
    muladd_spec ok16 hlt_n3 hlt_scNC1 (by norm_num)
  clear_value c17
  obtain ⟨ok18, v18⟩ : c18.Ok 2 ∧ c18.val = c17.val + l.l6 :=
    sumadd_spec ok17 hlt_n2 (by norm_num)
  clear_value c18
  obtain ⟨ok19, v19⟩ : c19.Ok 0 ∧ c18.val = c18.c0 + 2 ^ 64 * c19.val :=
    extract_spec ok18 (by norm_num)
  clear_value c19
  obtain ⟨ok20, v20⟩ : c20.Ok 0 ∧ c20.val = c19.val + l.l7 :=
    sumaddFast_spec ok19 hlt_n3 (by have := val_of_ok ok19; omega)
  clear_value c20
  obtain ⟨ok21, v21, z21⟩ : c21.Ok 0 ∧ c20.val = c20.c0 + 2 ^ 64 * c21.val ∧ c21.c1 = 0 :=
    extractFast_spec ok20
  clear_value c21
  have k21 := val_of_ok ok21
  subst hr
  simp only [xn0, xn1, xn2, xn3, xm0, xm1, xm2, xm3, xm4, xm5, xm6]
  rw [eNC0] at *
  rw [eNC1] at *
  clear xn0 xn1 xn2 xn3 xm0 xm1 xm2 xm3 xm4 xm5 xm6
  have h6 : c21.c0 ≤ 1 := by omega
  have e6 : c21.c0 % 2 ^ 32 = c21.c0 := Nat.mod_eq_of_lt (by omega)
  rw [e6]
  refine ⟨ok1.c0, ok5.c0, ok10.c0, ok15.c0, ok18.c0, ok20.c0, h6, ?_⟩
  unfold natM U512.nat
  rw [n_lit]
  dsimp only
  omega

/-- The number the words `p0..p4` stand for. -/
def natP (m : Red2) : ℕ :=
  m.p0 + m.p1 * 2 ^ 64 + m.p2 * 2 ^ 128 + m.p3 * 2 ^ 192 + m.p4 * 2 ^ 256

theorem reduce512b_spec {m : Red1} (hlt_m_m0 : m.m0 < 2 ^ 64) (hlt_m_m1 : m.m1 < 2 ^ 64)
    (hlt_m_m2 : m.m2 < 2 ^ 64) (hlt_m_m3 : m.m3 < 2 ^ 64) (hlt_m_m4 : m.m4 < 2 ^ 64)
    (hlt_m_m5 : m.m5 < 2 ^ 64) (h6 : m.m6 ≤ 1)
    (hm : m.m4 + m.m5 * 2 ^ 64 + m.m6 * 2 ^ 128 ≤ 2 ^ 256 - n) :
    let q := reduce512b m
    q.p0 < 2 ^ 64 ∧ q.p1 < 2 ^ 64 ∧ q.p2 < 2 ^ 64 ∧ q.p3 < 2 ^ 64 ∧ q.p4 ≤ 2 ∧
    natP q + (m.m4 + m.m5 * 2 ^ 64 + m.m6 * 2 ^ 128) * n = natM m := by
  intro r
  have hlt_m_m6 : m.m6 < 2 ^ 64 := by omega
  rw [n_lit] at *
  have hlt_scNC0 : scNC0 < 2 ^ 64 := by decide
  have hlt_scNC1 : scNC1 < 2 ^ 64 := by decide
  have eNC0 := scNC0_eq
  have eNC1 := scNC1_eq
  obtain ⟨r', hr⟩ : ∃ r', r' = r := ⟨_, rfl⟩
  rw [← hr]
  unfold r reduce512b at hr
  clear r
  extract_lets c0 c1 xp0 c2 c3 c4 c5 xp1 c6 c7 c8 c9 c10 xp2 c11 c12 c13 c14 xp3 c15 xp4 at hr
  have ok0 : c0.Ok 0 :=
    ⟨by simp only [c0]; omega, by simp only [c0]; omega, by simp only [c0]; omega⟩
  have v0 : c0.val = m.m0 := by simp only [c0, Acc.val]; omega
  clear_value c0
  obtain ⟨ok1, v1⟩ : c1.Ok 0 ∧ c1.val = c0.val + m.m4 * 0x402DA1732FC9BEBF :=
    muladdFast_spec (a := m.m4) (b := 0x402DA1732FC9BEBF) ok0 hlt_m_m4 (by norm_num) (by have := val_of_ok ok0; omega)
  clear_value c1
  obtain ⟨ok2, v2, z2⟩ : c2.Ok 0 ∧ c1.val = c1.c0 + 2 ^ 64 * c2.val ∧ c2.c1 = 0 :=
    extractFast_spec ok1
  clear_value c2
  obtain ⟨ok3, v3⟩ : c3.Ok 0 ∧ c3.val = c2.val + m.m1 :=
    sumaddFast_spec ok2 hlt_m_m1 (by have := val_of_ok ok2; omega)
  clear_value c3
  obtain ⟨ok4, v4⟩ : c4.Ok 1 ∧ c4.val = c3.val + m.m5 * 0x402DA1732FC9BEBF :=
    muladd_spec ok3 hlt_m_m5 hlt_scNC0 (by norm_num)
  clear_value c4
  obtain ⟨ok5, v5⟩ : c5.Ok 2 ∧ c5.val = c4.val + m.m4 * 0x4551231950B75FC4 :=
    muladd_spec ok4 hlt_m_m4 hlt_scNC1 (by norm_num)
  clear_value c5
  obtain ⟨ok6, v6⟩ : c6.Ok 0 ∧ c5.val = c5.c0 + 2 ^ 64 * c6.val := extract_spec ok5 (by norm_num)
  clear_value c6
  obtain ⟨ok7, v7⟩ : c7.Ok 1 ∧ c7.val = c6.val + m.m2 := sumadd_spec ok6 hlt_m_m2 (by norm_num)
  clear_value c7
  obtain ⟨ok8, v8⟩ : c8.Ok 2 ∧ c8.val = c7.val + m.m6 * 0x402DA1732FC9BEBF :=
    muladd_spec ok7 hlt_m_m6 hlt_scNC0 (by norm_num)
  clear_value c8
  obtain ⟨ok9, v9⟩ : c9.Ok 3 ∧ c9.val = c8.val + m.m5 * 0x4551231950B75FC4 :=
    muladd_spec ok8 hlt_m_m5 hlt_scNC1 (by norm_num)
  clear_value c9
  obtain ⟨ok10, v10⟩ : c10.Ok 4 ∧ c10.val = c9.val + m.m4 :=
    sumadd_spec ok9 hlt_m_m4 (by norm_num)
  clear_value c10
  obtain ⟨ok11, v11⟩ : c11.Ok 0 ∧ c10.val = c10.c0 + 2 ^ 64 * c11.val :=
    extract_spec ok10 (by norm_num)
  clear_value c11
  obtain ⟨ok12, v12⟩ : c12.Ok 0 ∧ c12.val = c11.val + m.m3 :=
    sumaddFast_spec ok11 hlt_m_m3 (by have := val_of_ok ok11; omega)
  clear_value c12
  obtain ⟨ok13, v13⟩ : c13.Ok 0 ∧ c13.val = c12.val + m.m6 * 0x4551231950B75FC4 :=
    muladdFast_spec (a := m.m6) (b := 0x4551231950B75FC4) ok12 hlt_m_m6 (by norm_num) (by have := val_of_ok ok12; omega)
  clear_value c13
  obtain ⟨ok14, v14⟩ : c14.Ok 0 ∧ c14.val = c13.val + m.m5 :=
    sumaddFast_spec ok13 hlt_m_m5 (by have := val_of_ok ok13; omega)
  clear_value c14
  obtain ⟨ok15, v15, z15⟩ : c15.Ok 0 ∧ c14.val = c14.c0 + 2 ^ 64 * c15.val ∧ c15.c1 = 0 :=
    extractFast_spec ok14
  clear_value c15
  have k15 := val_of_ok ok15
  subst hr
  simp only [xp0, xp1, xp2, xp3, xp4, u64]
  clear xp0 xp1 xp2 xp3 xp4
  have h6' : c15.c0 + m.m6 ≤ 2 := by omega
  have e6 : (c15.c0 + m.m6) % 2 ^ 64 % 2 ^ 32 = c15.c0 + m.m6 := by omega
  rw [e6]
  refine ⟨ok1.c0, ok5.c0, ok10.c0, ok14.c0, h6', ?_⟩
  unfold natM natP
  dsimp only
  omega

theorem reduce512c_spec {q : Red2} (h0 : q.p0 < 2 ^ 64) (h1 : q.p1 < 2 ^ 64) (h2 : q.p2 < 2 ^ 64)
    (h3 : q.p3 < 2 ^ 64) (h4 : q.p4 ≤ 2) :
    (reduce512c q).1.Words ∧
      (reduce512c q).1.nat + (reduce512c q).2 * 2 ^ 256 + q.p4 * n = natP q := by
  rw [n_lit]
  unfold reduce512c u128ToU64 u128Rshift u128AccumU64 u128AccumMul u128HiU64 u64 natP nat
  simp only [Nat.shiftRight_eq_div_pow, scNC0_eq, scNC1_eq]
  obtain ⟨t0, e0⟩ : ∃ t, t = q.p0 + 4624529908474429119 * q.p4 := ⟨_, rfl⟩
  rw [← e0, Nat.mod_eq_of_lt (show t0 < 2 ^ 128 by omega)]
  rw [Nat.mod_eq_of_lt (show t0 / 2 ^ 64 + q.p1 < 2 ^ 128 by omega)]
  obtain ⟨t1, e1⟩ : ∃ t, t = t0 / 2 ^ 64 + q.p1 + 4994812053365940164 * q.p4 := ⟨_, rfl⟩
  rw [← e1, Nat.mod_eq_of_lt (show t1 < 2 ^ 128 by omega)]
  rw [Nat.mod_eq_of_lt (show t1 / 2 ^ 64 + q.p2 < 2 ^ 128 by omega)]
  obtain ⟨t2, e2⟩ : ∃ t, t = t1 / 2 ^ 64 + q.p2 + q.p4 := ⟨_, rfl⟩
  rw [← e2, Nat.mod_eq_of_lt (show t2 < 2 ^ 128 by omega)]
  obtain ⟨t3, e3⟩ : ∃ t, t = t2 / 2 ^ 64 + q.p3 := ⟨_, rfl⟩
  rw [← e3, Nat.mod_eq_of_lt (show t3 < 2 ^ 128 by omega)]
  rw [Nat.mod_eq_of_lt (show t3 / 2 ^ 64 < 2 ^ 64 by omega)]
  refine ⟨⟨?_, ?_, ?_, ?_⟩, ?_⟩ <;> (try dsimp only) <;> omega

/-- `secp256k1_scalar_reduce_512` reduces every 512-bit number modulo `n`. -/
theorem reduce512_spec {l : U512} (hl : l.Words) :
    (reduce512 l).Words ∧ (reduce512 l).nat = l.nat % n := by
  obtain ⟨a0, a1, a2, a3, a4, a5, a6, ea⟩ := reduce512a_spec hl
  have hhi : l.l4 + l.l5 * 2 ^ 64 + l.l6 * 2 ^ 128 + l.l7 * 2 ^ 192 ≤ 2 ^ 256 - 1 := by
    obtain ⟨h0, h1, h2, h3, h4, h5, h6, h7⟩ := hl
    omega
  have hM : (reduce512a l).m4 + (reduce512a l).m5 * 2 ^ 64 + (reduce512a l).m6 * 2 ^ 128 ≤
      2 ^ 256 - n := by
    obtain ⟨h0, h1, h2, h3, h4, h5, h6, h7⟩ := hl
    unfold natM U512.nat at ea
    rw [n_lit] at *
    omega
  obtain ⟨b0, b1, b2, b3, b4, eb⟩ := reduce512b_spec a0 a1 a2 a3 a4 a5 a6 hM
  obtain ⟨cw, ec⟩ := reduce512c_spec b0 b1 b2 b3 b4
  have hlt : (reduce512c (reduce512b (reduce512a l))).1.nat +
      (reduce512c (reduce512b (reduce512a l))).2 * 2 ^ 256 < 2 * n := by
    unfold natP at ec
    rw [n_lit] at *
    omega
  obtain ⟨f1, -, f2, f3⟩ := reduce_final cw hlt
  unfold reduce512
  have e : u64 ((reduce512c (reduce512b (reduce512a l))).2 +
      bit (reduce512c (reduce512b (reduce512a l))).1.checkOverflow) % 2 ^ 32 =
      (reduce512c (reduce512b (reduce512a l))).2 +
      bit (reduce512c (reduce512b (reduce512a l))).1.checkOverflow := by
    unfold u64
    omega
  simp only [e]
  refine ⟨f2, ?_⟩
  rw [f3, ← ea, ← eb, ← ec]
  simp only [Nat.add_mul_mod_self_right]

end Model.Sc4
end Secp
