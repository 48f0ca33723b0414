import Verif.Proof.Scalar4x64Mul

/-!
# What the four assembly statements compute, as operations of the accumulator

Against the C code: all words have 64 bits, and the first product and the last step start differently.
-/

namespace Secp
open Model

namespace Model.Sc4
open Acc

/-- 512 bits into 385, without the cut to 32 bits -/
def redA (l : U512) : Red1 :=
  let n0 := l.l4
  let n1 := l.l5
  let n2 := l.l6
  let n3 := l.l7
  let c : Acc := ⟨l.l0, 0, 0⟩
  let c := c.muladdFast n0 scNC0
  let m0 := c.c0
  let c := c.extractFast
  let c := c.sumaddFast l.l1
  let c := c.muladd 64 n1 scNC0
  let c := c.muladd 64 n0 scNC1
  let m1 := c.c0
  let c := c.extract
  let c := c.sumadd 64 l.l2
  let c := c.muladd 64 n2 scNC0
  let c := c.muladd 64 n1 scNC1
  let c := c.sumadd 64 n0
  let m2 := c.c0
  let c := c.extract
  let c := c.sumadd 64 l.l3
  let c := c.muladd 64 n3 scNC0
  let c := c.muladd 64 n2 scNC1
  let c := c.sumadd 64 n1
  let m3 := c.c0
  let c := c.extract
  let c := c.muladd 64 n3 scNC1
  let c := c.sumadd 64 n2
  let m4 := c.c0
  let c := c.extract
  let c := c.sumaddFast n3
  let m5 := c.c0
  let c := c.extractFast
  let m6 := c.c0
  ⟨m0, m1, m2, m3, m4, m5, m6⟩


/-- 385 bits into 258, without the cut to 32 bits -/
def redB (m : Red1) : Red2 :=
  let c : Acc := ⟨m.m0, 0, 0⟩
  let c := c.muladdFast m.m4 scNC0
  let p0 := c.c0
  let c := c.extractFast
  let c := c.sumaddFast m.m1
  let c := c.muladd 64 m.m5 scNC0
  let c := c.muladd 64 m.m4 scNC1
  let p1 := c.c0
  let c := c.extract
  let c := c.sumadd 64 m.m2
  let c := c.muladd 64 m.m6 scNC0
  let c := c.muladd 64 m.m5 scNC1
  let c := c.sumadd 64 m.m4
  let p2 := c.c0
  let c := c.extract
  let c := c.sumaddFast m.m3
  let c := c.muladdFast m.m6 scNC1
  let c := c.sumaddFast m.m5
  let p3 := c.c0
  let c := c.extractFast
  let p4 := u64 (c.c0 + m.m6)
  ⟨p0, p1, p2, p3, p4⟩


/-- 258 bits into 256 -/
def redC (p : Red2) : Sc4 × Nat :=
  let c : Acc := ⟨p.p4 * scNC0 % 2 ^ 64, p.p4 * scNC0 / 2 ^ 64, 0⟩
  let c := c.sumaddFast p.p0
  let d0 := c.c0
  let c := c.extractFast
  let c := c.sumaddFast p.p1
  let c := c.muladdFast p.p4 scNC1
  let d1 := c.c0
  let c := c.extractFast
  let c := c.sumaddFast p.p4
  let c := c.sumaddFast p.p2
  let d2 := c.c0
  let c := c.extractFast
  let c := c.sumaddFast p.p3
  let d3 := c.c0
  let k := c.c1
  (⟨d0, d1, d2, d3⟩, k)

/-- The product -/
def mulW (a b : Sc4) : U512 :=
  let c : Acc := ⟨b.d0 * a.d0 % 2 ^ 64, b.d0 * a.d0 / 2 ^ 64, 0⟩
  let l0 := c.c0
  let c := c.extractFast
  let c := c.muladd 64 b.d1 a.d0
  let c := c.muladd 64 b.d0 a.d1
  let l1 := c.c0
  let c := c.extract
  let c := c.muladd 64 b.d2 a.d0
  let c := c.muladd 64 b.d1 a.d1
  let c := c.muladd 64 b.d0 a.d2
  let l2 := c.c0
  let c := c.extract
  let c := c.muladd 64 b.d3 a.d0
  let c := c.muladd 64 b.d2 a.d1
  let c := c.muladd 64 b.d1 a.d2
  let c := c.muladd 64 b.d0 a.d3
  let l3 := c.c0
  let c := c.extract
  let c := c.muladd 64 b.d3 a.d1
  let c := c.muladd 64 b.d2 a.d2
  let c := c.muladd 64 b.d1 a.d3
  let l4 := c.c0
  let c := c.extract
  let c := c.muladd 64 b.d3 a.d2
  let c := c.muladd 64 b.d2 a.d3
  let l5 := c.c0
  let c := c.extract
  let c := c.muladdFast b.d3 a.d3
  let l6 := c.c0
  let c := c.extractFast
  let l7 := c.c0
  ⟨l0, l1, l2, l3, l4, l5, l6, l7⟩

theorem redA_spec {l : U512} (hl : l.Words) :
    let m := redA l
    m.m0 < 2 ^ 64 ∧ m.m1 < 2 ^ 64 ∧ m.m2 < 2 ^ 64 ∧ m.m3 < 2 ^ 64 ∧ m.m4 < 2 ^ 64 ∧
    m.m5 < 2 ^ 64 ∧ m.m6 ≤ 1 ∧
    natM m + (l.l4 + l.l5 * 2 ^ 64 + l.l6 * 2 ^ 128 + l.l7 * 2 ^ 192) * n = l.nat := by
  intro r
  obtain ⟨hlt_l_l0, hlt_l_l1, hlt_l_l2, hlt_l_l3, hlt_n0, hlt_n1, hlt_n2, hlt_n3⟩ := hl
  have hlt_scNC0 : scNC0 < 2 ^ 64 := by decide
  have hlt_scNC1 : scNC1 < 2 ^ 64 := by decide
  have eNC0 := scNC0_eq
  have eNC1 := scNC1_eq
  obtain ⟨r', hr⟩ : ∃ r', r' = r := ⟨_, rfl⟩
  rw [← hr]
  unfold r redA at hr
  clear r
  extract_lets xn0 xn1 xn2 xn3 c0 c1 xm0 c2 c3 c4 c5 xm1 c6 c7 c8 c9 c10 xm2 c11 c12 c13 c14 c15 xm3 c16 c17 c18 xm4 c19 c20 xm5 c21 xm6 at hr
  have ok0 : c0.Ok 0 :=
    ⟨by simp only [c0]; omega, by simp only [c0]; omega, by simp only [c0]; omega⟩
  have v0 : c0.val = l.l0 := by simp only [c0, Acc.val]; omega
  clear_value c0
  obtain ⟨ok1, v1⟩ : c1.Ok 0 ∧ c1.val = c0.val + l.l4 * 0x402DA1732FC9BEBF :=
    muladdFast_spec (a := l.l4) (b := 0x402DA1732FC9BEBF) ok0 hlt_n0 (by norm_num) (by have := val_of_ok ok0; omega)
  clear_value c1
  obtain ⟨ok2, v2, z2⟩ : c2.Ok 0 ∧ c1.val = c1.c0 + 2 ^ 64 * c2.val ∧ c2.c1 = 0 :=
    extractFast_spec ok1
  clear_value c2
  obtain ⟨ok3, v3⟩ : c3.Ok 0 ∧ c3.val = c2.val + l.l1 :=
    sumaddFast_spec ok2 hlt_l_l1 (by have := val_of_ok ok2; omega)
  clear_value c3
  obtain ⟨ok4, v4⟩ : c4.Ok 1 ∧ c4.val = c3.val + l.l5 * 0x402DA1732FC9BEBF :=
    muladd_spec ok3 hlt_n1 hlt_scNC0 (by norm_num)
  clear_value c4
  obtain ⟨ok5, v5⟩ : c5.Ok 2 ∧ c5.val = c4.val + l.l4 * 0x4551231950B75FC4 :=
    muladd_spec ok4 hlt_n0 hlt_scNC1 (by norm_num)
  clear_value c5
  obtain ⟨ok6, v6⟩ : c6.Ok 0 ∧ c5.val = c5.c0 + 2 ^ 64 * c6.val := extract_spec ok5 (by norm_num)
  clear_value c6
  obtain ⟨ok7, v7⟩ : c7.Ok 1 ∧ c7.val = c6.val + l.l2 := sumadd_spec ok6 hlt_l_l2 (by norm_num)
  clear_value c7
  obtain ⟨ok8, v8⟩ : c8.Ok 2 ∧ c8.val = c7.val + l.l6 * 0x402DA1732FC9BEBF :=
    muladd_spec ok7 hlt_n2 hlt_scNC0 (by norm_num)
  clear_value c8
  obtain ⟨ok9, v9⟩ : c9.Ok 3 ∧ c9.val = c8.val + l.l5 * 0x4551231950B75FC4 :=
    muladd_spec ok8 hlt_n1 hlt_scNC1 (by norm_num)
  clear_value c9
  obtain ⟨ok10, v10⟩ : c10.Ok 4 ∧ c10.val = c9.val + l.l4 := sumadd_spec ok9 hlt_n0 (by norm_num)
  clear_value c10
  obtain ⟨ok11, v11⟩ : c11.Ok 0 ∧ c10.val = c10.c0 + 2 ^ 64 * c11.val :=
    extract_spec ok10 (by norm_num)
  clear_value c11
  obtain ⟨ok12, v12⟩ : c12.Ok 1 ∧ c12.val = c11.val + l.l3 :=
    sumadd_spec ok11 hlt_l_l3 (by norm_num)
  clear_value c12
  obtain ⟨ok13, v13⟩ : c13.Ok 2 ∧ c13.val = c12.val + l.l7 * 0x402DA1732FC9BEBF :=
    muladd_spec ok12 hlt_n3 hlt_scNC0 (by norm_num)
  clear_value c13
  obtain ⟨ok14, v14⟩ : c14.Ok 3 ∧ c14.val = c13.val + l.l6 * 0x4551231950B75FC4 :=
    muladd_spec ok13 hlt_n2 hlt_scNC1 (by norm_num)
  clear_value c14
  obtain ⟨ok15, v15⟩ : c15.Ok 4 ∧ c15.val = c14.val + l.l5 :=
    sumadd_spec ok14 hlt_n1 (by norm_num)
  clear_value c15
  obtain ⟨ok16, v16⟩ : c16.Ok 0 ∧ c15.val = c15.c0 + 2 ^ 64 * c16.val :=
    extract_spec ok15 (by norm_num)
  clear_value c16
  obtain ⟨ok17, v17⟩ : c17.Ok 1 ∧ c17.val = c16.val + l.l7 * 0x4551231950B75FC4 :=
    muladd_spec ok16 hlt_n3 hlt_scNC1 (by norm_num)
  clear_value c17
  obtain ⟨ok18, v18⟩ : c18.Ok 2 ∧ c18.val = c17.val + l.l6 :=
    sumadd_spec ok17 hlt_n2 (by norm_num)
  clear_value c18
  obtain ⟨ok19, v19⟩ : c19.Ok 0 ∧ c18.val = c18.c0 + 2 ^ 64 * c19.val :=
    extract_spec ok18 (by norm_num)
  clear_value c19
  obtain ⟨ok20, v20⟩ : c20.Ok 0 ∧ c20.val = c19.val + l.l7 :=
    sumaddFast_spec ok19 hlt_n3 (by have := val_of_ok ok19; omega)
  clear_value c20
  obtain ⟨ok21, v21, z21⟩ : c21.Ok 0 ∧ c20.val = c20.c0 + 2 ^ 64 * c21.val ∧ c21.c1 = 0 :=
    extractFast_spec ok20
  clear_value c21
  have k21 := val_of_ok ok21
  subst hr
  simp only [xn0, xn1, xn2, xn3, xm0, xm1, xm2, xm3, xm4, xm5, xm6]
  rw [eNC0] at *
  rw [eNC1] at *
  clear xn0 xn1 xn2 xn3 xm0 xm1 xm2 xm3 xm4 xm5 xm6
  have h6 : c21.c0 ≤ 1 := by omega
  refine ⟨ok1.c0, ok5.c0, ok10.c0, ok15.c0, ok18.c0, ok20.c0, h6, ?_⟩
  unfold natM U512.nat
  rw [n_lit]
  dsimp only
  omega

theorem redB_spec {m : Red1} (hlt_m_m0 : m.m0 < 2 ^ 64) (hlt_m_m1 : m.m1 < 2 ^ 64)
    (hlt_m_m2 : m.m2 < 2 ^ 64) (hlt_m_m3 : m.m3 < 2 ^ 64) (hlt_m_m4 : m.m4 < 2 ^ 64)
    (hlt_m_m5 : m.m5 < 2 ^ 64) (h6 : m.m6 ≤ 1)
    (hm : m.m4 + m.m5 * 2 ^ 64 + m.m6 * 2 ^ 128 ≤ 2 ^ 256 - n) :
    let q := redB m
    q.p0 < 2 ^ 64 ∧ q.p1 < 2 ^ 64 ∧ q.p2 < 2 ^ 64 ∧ q.p3 < 2 ^ 64 ∧ q.p4 ≤ 2 ∧
    natP q + (m.m4 + m.m5 * 2 ^ 64 + m.m6 * 2 ^ 128) * n = natM m := by
  intro r
  have hlt_m_m6 : m.m6 < 2 ^ 64 := by omega
  rw [n_lit] at *
  have hlt_scNC0 : scNC0 < 2 ^ 64 := by decide
  have hlt_scNC1 : scNC1 < 2 ^ 64 := by decide
  have eNC0 := scNC0_eq
  have eNC1 := scNC1_eq
  obtain ⟨r', hr⟩ : ∃ r', r' = r := ⟨_, rfl⟩
  rw [← hr]
  unfold r redB at hr
  clear r
  extract_lets c0 c1 xp0 c2 c3 c4 c5 xp1 c6 c7 c8 c9 c10 xp2 c11 c12 c13 c14 xp3 c15 xp4 at hr
  have ok0 : c0.Ok 0 :=
    ⟨by simp only [c0]; omega, by simp only [c0]; omega, by simp only [c0]; omega⟩
  have v0 : c0.val = m.m0 := by simp only [c0, Acc.val]; omega
  clear_value c0
  obtain ⟨ok1, v1⟩ : c1.Ok 0 ∧ c1.val = c0.val + m.m4 * 0x402DA1732FC9BEBF :=
    muladdFast_spec (a := m.m4) (b := 0x402DA1732FC9BEBF) ok0 hlt_m_m4 (by norm_num) (by have := val_of_ok ok0; omega)
  clear_value c1
  obtain ⟨ok2, v2, z2⟩ : c2.Ok 0 ∧ c1.val = c1.c0 + 2 ^ 64 * c2.val ∧ c2.c1 = 0 :=
    extractFast_spec ok1
  clear_value c2
  obtain ⟨ok3, v3⟩ : c3.Ok 0 ∧ c3.val = c2.val + m.m1 :=
    sumaddFast_spec ok2 hlt_m_m1 (by have := val_of_ok ok2; omega)
  clear_value c3
  obtain ⟨ok4, v4⟩ : c4.Ok 1 ∧ c4.val = c3.val + m.m5 * 0x402DA1732FC9BEBF :=
    muladd_spec ok3 hlt_m_m5 hlt_scNC0 (by norm_num)
  clear_value c4
  obtain ⟨ok5, v5⟩ : c5.Ok 2 ∧ c5.val = c4.val + m.m4 * 0x4551231950B75FC4 :=
    muladd_spec ok4 hlt_m_m4 hlt_scNC1 (by norm_num)
  clear_value c5
  obtain ⟨ok6, v6⟩ : c6.Ok 0 ∧ c5.val = c5.c0 + 2 ^ 64 * c6.val := extract_spec ok5 (by norm_num)
  clear_value c6
  obtain ⟨ok7, v7⟩ : c7.Ok 1 ∧ c7.val = c6.val + m.m2 := sumadd_spec ok6 hlt_m_m2 (by norm_num)
  clear_value c7
  obtain ⟨ok8, v8⟩ : c8.Ok 2 ∧ c8.val = c7.val + m.m6 * 0x402DA1732FC9BEBF :=
    muladd_spec ok7 hlt_m_m6 hlt_scNC0 (by norm_num)
  clear_value c8
  obtain ⟨ok9, v9⟩ : c9.Ok 3 ∧ c9.val = c8.val + m.m5 * 0x4551231950B75FC4 :=
    muladd_spec ok8 hlt_m_m5 hlt_scNC1 (by norm_num)
  clear_value c9
  obtain ⟨ok10, v10⟩ : c10.Ok 4 ∧ c10.val = c9.val + m.m4 :=
    sumadd_spec ok9 hlt_m_m4 (by norm_num)
  clear_value c10
  obtain ⟨ok11, v11⟩ : c11.Ok 0 ∧ c10.val = c10.c0 + 2 ^ 64 * c11.val :=
    extract_spec ok10 (by norm_num)
  clear_value c11
  obtain ⟨ok12, v12⟩ : c12.Ok 0 ∧ c12.val = c11.val + m.m3 :=
    sumaddFast_spec ok11 hlt_m_m3 (by have := val_of_ok ok11; omega)
  clear_value c12
  obtain ⟨ok13, v13⟩ : c13.Ok 0 ∧ c13.val = c12.val + m.m6 * 0x4551231950B75FC4 :=
    muladdFast_spec (a := m.m6) (b := 0x4551231950B75FC4) ok12 hlt_m_m6 (by norm_num) (by have := val_of_ok ok12; omega)
  clear_value c13
  obtain ⟨ok14, v14⟩ : c14.Ok 0 ∧ c14.val = c13.val + m.m5 :=
    sumaddFast_spec ok13 hlt_m_m5 (by have := val_of_ok ok13; omega)
  clear_value c14
  obtain ⟨ok15, v15, z15⟩ : c15.Ok 0 ∧ c14.val = c14.c0 + 2 ^ 64 * c15.val ∧ c15.c1 = 0 :=
    extractFast_spec ok14
  clear_value c15
  have k15 := val_of_ok ok15
  subst hr
  simp only [xp0, xp1, xp2, xp3, xp4, u64]
  clear xp0 xp1 xp2 xp3 xp4
  have h6' : c15.c0 + m.m6 ≤ 2 := by omega
  have e6 : (c15.c0 + m.m6) % 2 ^ 64 = c15.c0 + m.m6 := by omega
  rw [e6]
  refine ⟨ok1.c0, ok5.c0, ok10.c0, ok14.c0, h6', ?_⟩
  unfold natM natP
  dsimp only
  omega

theorem redC_spec {q : Red2} (h0 : q.p0 < 2 ^ 64) (h1 : q.p1 < 2 ^ 64) (h2 : q.p2 < 2 ^ 64)
    (h3 : q.p3 < 2 ^ 64) (h4 : q.p4 ≤ 2) :
    (redC q).1.Words ∧ (redC q).1.nat + (redC q).2 * 2 ^ 256 + q.p4 * n = natP q := by
  have hlt4 : q.p4 < 2 ^ 64 := by omega
  obtain ⟨r', hr⟩ : ∃ r', r' = redC q := ⟨_, rfl⟩
  rw [← hr]
  unfold redC at hr
  rw [scNC0_eq, scNC1_eq] at hr
  extract_lets c0 c1 xd0 c2 c3 c4 xd1 c5 c6 c7 xd2 c8 c9 xd3 xk at hr
  have ok0 : c0.Ok 0 :=
    ⟨by simp only [c0]; omega, by simp only [c0]; omega, by simp only [c0]; omega⟩
  have v0 : c0.val = q.p4 * 0x402DA1732FC9BEBF := by simp only [c0, Acc.val]; omega
  clear_value c0
  obtain ⟨ok1, v1⟩ : c1.Ok 0 ∧ c1.val = c0.val + q.p0 :=
    sumaddFast_spec ok0 h0 (by have := val_of_ok ok0; omega)
  clear_value c1
  obtain ⟨ok2, v2, z2⟩ : c2.Ok 0 ∧ c1.val = c1.c0 + 2 ^ 64 * c2.val ∧ c2.c1 = 0 := extractFast_spec ok1
  clear_value c2
  obtain ⟨ok3, v3⟩ : c3.Ok 0 ∧ c3.val = c2.val + q.p1 :=
    sumaddFast_spec ok2 h1 (by have := val_of_ok ok2; omega)
  clear_value c3
  obtain ⟨ok4, v4⟩ : c4.Ok 0 ∧ c4.val = c3.val + q.p4 * 0x4551231950B75FC4 :=
    muladdFast_spec (a := q.p4) (b := 0x4551231950B75FC4) ok3 hlt4 (by norm_num)
      (by have := val_of_ok ok3; have := val_of_ok ok2; omega)
  clear_value c4
  obtain ⟨ok5, v5, z5⟩ : c5.Ok 0 ∧ c4.val = c4.c0 + 2 ^ 64 * c5.val ∧ c5.c1 = 0 := extractFast_spec ok4
  clear_value c5
  obtain ⟨ok6, v6⟩ : c6.Ok 0 ∧ c6.val = c5.val + q.p4 :=
    sumaddFast_spec ok5 hlt4 (by have := val_of_ok ok5; omega)
  clear_value c6
  obtain ⟨ok7, v7⟩ : c7.Ok 0 ∧ c7.val = c6.val + q.p2 :=
    sumaddFast_spec ok6 h2 (by have := val_of_ok ok6; have := val_of_ok ok5; omega)
  clear_value c7
  obtain ⟨ok8, v8, z8⟩ : c8.Ok 0 ∧ c7.val = c7.c0 + 2 ^ 64 * c8.val ∧ c8.c1 = 0 := extractFast_spec ok7
  clear_value c8
  obtain ⟨ok9, v9⟩ : c9.Ok 0 ∧ c9.val = c8.val + q.p3 :=
    sumaddFast_spec ok8 h3 (by have := val_of_ok ok8; omega)
  clear_value c9
  have k9 := val_of_ok ok9
  subst hr
  refine ⟨⟨ok1.c0, ok4.c0, ok7.c0, ok9.c0⟩, ?_⟩
  unfold natP nat
  simp only [xd0, xd1, xd2, xd3, xk]
  clear xd0 xd1 xd2 xd3 xk
  rw [n_lit]
  omega

set_option exponentiation.threshold 600 in
theorem mulW_spec {a b : Sc4} (ha : a.Words) (hb : b.Words) :
    (mulW a b).Words ∧ (mulW a b).nat = a.nat * b.nat := by
  obtain ⟨hlt_a_d0, hlt_a_d1, hlt_a_d2, hlt_a_d3⟩ := ha
  obtain ⟨hlt_b_d0, hlt_b_d1, hlt_b_d2, hlt_b_d3⟩ := hb
  have q00 := prod_lt hlt_a_d0 hlt_b_d0
  have q01 := prod_lt hlt_a_d0 hlt_b_d1
  have q02 := prod_lt hlt_a_d0 hlt_b_d2
  have q03 := prod_lt hlt_a_d0 hlt_b_d3
  have q10 := prod_lt hlt_a_d1 hlt_b_d0
  have q11 := prod_lt hlt_a_d1 hlt_b_d1
  have q12 := prod_lt hlt_a_d1 hlt_b_d2
  have q13 := prod_lt hlt_a_d1 hlt_b_d3
  have q20 := prod_lt hlt_a_d2 hlt_b_d0
  have q21 := prod_lt hlt_a_d2 hlt_b_d1
  have q22 := prod_lt hlt_a_d2 hlt_b_d2
  have q23 := prod_lt hlt_a_d2 hlt_b_d3
  have q30 := prod_lt hlt_a_d3 hlt_b_d0
  have q31 := prod_lt hlt_a_d3 hlt_b_d1
  have q32 := prod_lt hlt_a_d3 hlt_b_d2
  have q33 := prod_lt hlt_a_d3 hlt_b_d3
  obtain ⟨r, hr⟩ : ∃ r, mulW a b = r := ⟨_, rfl⟩
  rw [hr]
  unfold mulW at hr
  extract_lets c1 xl0 c2 c3 c4 xl1 c5 c6 c7 c8 xl2 c9 c10 c11 c12 c13 xl3 c14 c15 c16 c17 xl4 c18 c19 c20 xl5 c21 c22 xl6 c23 xl7 at hr
  obtain ⟨ok1, v1⟩ : c1.Ok 0 ∧ c1.val = a.d0 * b.d0 := by
    have e : b.d0 * a.d0 = a.d0 * b.d0 := Nat.mul_comm _ _
    refine ⟨⟨?_, ?_, le_refl _⟩, ?_⟩
    · simp only [c1]; omega
    · simp only [c1, e]; omega
    · simp only [c1, Acc.val, e]; omega
  clear_value c1
  obtain ⟨ok2, v2, z2⟩ : c2.Ok 0 ∧ c1.val = c1.c0 + 2 ^ 64 * c2.val ∧ c2.c1 = 0 :=
    extractFast_spec ok1
  clear_value c2
  obtain ⟨ok3, v3⟩ : c3.Ok 1 ∧ c3.val = c2.val + a.d0 * b.d1 := by
    rw [Nat.mul_comm]
    exact muladd_spec ok2 hlt_b_d1 hlt_a_d0 (by norm_num)
  clear_value c3
  obtain ⟨ok4, v4⟩ : c4.Ok 2 ∧ c4.val = c3.val + a.d1 * b.d0 := by
    rw [Nat.mul_comm]
    exact muladd_spec ok3 hlt_b_d0 hlt_a_d1 (by norm_num)
  clear_value c4
  obtain ⟨ok5, v5⟩ : c5.Ok 0 ∧ c4.val = c4.c0 + 2 ^ 64 * c5.val := extract_spec ok4 (by norm_num)
  clear_value c5
  obtain ⟨ok6, v6⟩ : c6.Ok 1 ∧ c6.val = c5.val + a.d0 * b.d2 := by
    rw [Nat.mul_comm]
    exact muladd_spec ok5 hlt_b_d2 hlt_a_d0 (by norm_num)
  clear_value c6
  obtain ⟨ok7, v7⟩ : c7.Ok 2 ∧ c7.val = c6.val + a.d1 * b.d1 := by
    rw [Nat.mul_comm]
    exact muladd_spec ok6 hlt_b_d1 hlt_a_d1 (by norm_num)
  clear_value c7
  obtain ⟨ok8, v8⟩ : c8.Ok 3 ∧ c8.val = c7.val + a.d2 * b.d0 := by
    rw [Nat.mul_comm]
    exact muladd_spec ok7 hlt_b_d0 hlt_a_d2 (by norm_num)
  clear_value c8
  obtain ⟨ok9, v9⟩ : c9.Ok 0 ∧ c8.val = c8.c0 + 2 ^ 64 * c9.val := extract_spec ok8 (by norm_num)
  clear_value c9
  obtain ⟨ok10, v10⟩ : c10.Ok 1 ∧ c10.val = c9.val + a.d0 * b.d3 := by
    rw [Nat.mul_comm]
    exact muladd_spec ok9 hlt_b_d3 hlt_a_d0 (by norm_num)
  clear_value c10
  obtain ⟨ok11, v11⟩ : c11.Ok 2 ∧ c11.val = c10.val + a.d1 * b.d2 := by
    rw [Nat.mul_comm]
    exact muladd_spec ok10 hlt_b_d2 hlt_a_d1 (by norm_num)
  clear_value c11
  obtain ⟨ok12, v12⟩ : c12.Ok 3 ∧ c12.val = c11.val + a.d2 * b.d1 := by
    rw [Nat.mul_comm]
    exact muladd_spec ok11 hlt_b_d1 hlt_a_d2 (by norm_num)
  clear_value c12
  obtain ⟨ok13, v13⟩ : c13.Ok 4 ∧ c13.val = c12.val + a.d3 * b.d0 := by
    rw [Nat.mul_comm]
    exact muladd_spec ok12 hlt_b_d0 hlt_a_d3 (by norm_num)
  clear_value c13
  obtain ⟨ok14, v14⟩ : c14.Ok 0 ∧ c13.val = c13.c0 + 2 ^ 64 * c14.val :=
    extract_spec ok13 (by norm_num)
  clear_value c14
  obtain ⟨ok15, v15⟩ : c15.Ok 1 ∧ c15.val = c14.val + a.d1 * b.d3 := by
    rw [Nat.mul_comm]
    exact muladd_spec ok14 hlt_b_d3 hlt_a_d1 (by norm_num)
  clear_value c15
  obtain ⟨ok16, v16⟩ : c16.Ok 2 ∧ c16.val = c15.val + a.d2 * b.d2 := by
    rw [Nat.mul_comm]
    exact muladd_spec ok15 hlt_b_d2 hlt_a_d2 (by norm_num)
  clear_value c16
  obtain ⟨ok17, v17⟩ : c17.Ok 3 ∧ c17.val = c16.val + a.d3 * b.d1 := by
    rw [Nat.mul_comm]
    exact muladd_spec ok16 hlt_b_d1 hlt_a_d3 (by norm_num)
  clear_value c17
  obtain ⟨ok18, v18⟩ : c18.Ok 0 ∧ c17.val = c17.c0 + 2 ^ 64 * c18.val :=
    extract_spec ok17 (by norm_num)
  clear_value c18
  obtain ⟨ok19, v19⟩ : c19.Ok 1 ∧ c19.val = c18.val + a.d2 * b.d3 := by
    rw [Nat.mul_comm]
    exact muladd_spec ok18 hlt_b_d3 hlt_a_d2 (by norm_num)
  clear_value c19
  obtain ⟨ok20, v20⟩ : c20.Ok 2 ∧ c20.val = c19.val + a.d3 * b.d2 := by
    rw [Nat.mul_comm]
    exact muladd_spec ok19 hlt_b_d2 hlt_a_d3 (by norm_num)
  clear_value c20
  obtain ⟨ok21, v21⟩ : c21.Ok 0 ∧ c20.val = c20.c0 + 2 ^ 64 * c21.val :=
    extract_spec ok20 (by norm_num)
  clear_value c21
  obtain ⟨ok22, v22⟩ : c22.Ok 0 ∧ c22.val = c21.val + a.d3 * b.d3 := by
    rw [Nat.mul_comm]
    exact muladdFast_spec ok21 hlt_b_d3 hlt_a_d3 (by rw [Nat.mul_comm b.d3 a.d3]; have := val_of_ok ok21; omega)
  clear_value c22
  obtain ⟨ok23, v23, z23⟩ : c23.Ok 0 ∧ c22.val = c22.c0 + 2 ^ 64 * c23.val ∧ c23.c1 = 0 :=
    extractFast_spec ok22
  clear_value c23
  subst hr
  have k23 := val_of_ok ok23
  refine ⟨⟨ok1.c0, ok4.c0, ok8.c0, ok13.c0, ok17.c0, ok20.c0, ok22.c0, ok23.c0⟩, ?_⟩
  have e : a.nat * b.nat = a.d0 * b.d0 + (a.d0 * b.d1 + a.d1 * b.d0) * 2 ^ 64 +
      (a.d0 * b.d2 + a.d1 * b.d1 + a.d2 * b.d0) * 2 ^ 128 +
      (a.d0 * b.d3 + a.d1 * b.d2 + a.d2 * b.d1 + a.d3 * b.d0) * 2 ^ 192 +
      (a.d1 * b.d3 + a.d2 * b.d2 + a.d3 * b.d1) * 2 ^ 256 +
      (a.d2 * b.d3 + a.d3 * b.d2) * 2 ^ 320 + a.d3 * b.d3 * 2 ^ 384 := by
    unfold nat
    ring
  rw [e]
  unfold U512.nat
  simp only [xl0, xl1, xl2, xl3, xl4, xl5, xl6, xl7]
  clear e xl0 xl1 xl2 xl3 xl4 xl5 xl6 xl7
  omega


end Model.Sc4

end Secp
