import Verif.Proof.Asm.Eval
import Verif.Proof.Scalar4x64Ops

/-!
# The assembly computes the product and its residue
-/

namespace Secp.Model
open Model

namespace U512

theorem nat_inj {a b : U512} (ha : a.Words) (hb : b.Words) (h : a.nat = b.nat) : a = b := by
  obtain ⟨a0, a1, a2, a3, a4, a5, a6, a7⟩ := ha
  obtain ⟨b0, b1, b2, b3, b4, b5, b6, b7⟩ := hb
  obtain ⟨x0, x1, x2, x3, x4, x5, x6, x7⟩ := a
  obtain ⟨y0, y1, y2, y3, y4, y5, y6, y7⟩ := b
  unfold nat at h
  dsimp only at *
  have e0 : x0 = y0 := by omega
  subst e0
  have e1 : x1 = y1 := by omega
  subst e1
  have e2 : x2 = y2 := by omega
  subst e2
  have e3 : x3 = y3 := by omega
  subst e3
  have e4 : x4 = y4 := by omega
  subst e4
  have e5 : x5 = y5 := by omega
  subst e5
  have e6 : x6 = y6 := by omega
  subst e6
  have e7 : x7 = y7 := by omega
  subst e7
  rfl

end U512

namespace Sc4

/-- The three steps of the reduction -/
theorem red_spec {l : U512} (hl : l.Words) {q : Sc4 × ℕ} (hq : q = redC (redB (redA l))) :
    (q.1.reduce (u64 (q.2 + bit q.1.checkOverflow) % 2 ^ 32)).Words ∧
      (q.1.reduce (u64 (q.2 + bit q.1.checkOverflow) % 2 ^ 32)).nat = l.nat % n := by
  obtain ⟨a0, a1, a2, a3, a4, a5, a6, ea⟩ := redA_spec hl
  have hhi : l.l4 + l.l5 * 2 ^ 64 + l.l6 * 2 ^ 128 + l.l7 * 2 ^ 192 ≤ 2 ^ 256 - 1 := by
    obtain ⟨h0, h1, h2, h3, h4, h5, h6, h7⟩ := hl
    omega
  have hM : (redA l).m4 + (redA l).m5 * 2 ^ 64 + (redA l).m6 * 2 ^ 128 ≤
      2 ^ 256 - n := by
    obtain ⟨h0, h1, h2, h3, h4, h5, h6, h7⟩ := hl
    unfold natM U512.nat at ea
    rw [n_lit] at *
    omega
  obtain ⟨b0, b1, b2, b3, b4, eb⟩ := redB_spec a0 a1 a2 a3 a4 a5 a6 hM
  obtain ⟨cw, ec⟩ := redC_spec b0 b1 b2 b3 b4
  rw [← hq] at cw ec
  have hlt : q.1.nat + q.2 * 2 ^ 256 < 2 * n := by
    unfold natP at ec
    rw [n_lit] at *
    omega
  obtain ⟨f1, -, f2, f3⟩ := reduce_final cw hlt
  have e : u64 (q.2 + bit q.1.checkOverflow) % 2 ^ 32 = q.2 + bit q.1.checkOverflow := by
    unfold u64
    omega
  rw [e]
  refine ⟨f2, ?_⟩
  rw [f3, ← ea, ← eb, ← ec]
  simp only [Nat.add_mul_mod_self_right]

end Sc4

namespace Asm

theorem sc4At_words {s : St} (hs : s.Words) (a : ℕ) : (sc4At s.mem a).Words :=
  ⟨hs.mem _, hs.mem _, hs.mem _, hs.mem _⟩

/-- `mul512` stores the product. -/
theorem mul512_run {s : St} (hs : s.Words) (hd : s.reg .rdi + 32 ≤ s.reg .rsi ∨ s.reg .rsi + 64 ≤ s.reg .rdi) :
    u512At (run .cell s mul512).mem (s.reg .rsi) =
      Sc4.mulW (sc4At s.mem (s.reg .rdi)) (sc4At s.mem (s.reg .rdx)) := by
  have h := run_macs hs mul512_macs_ok
  rw [← mul512_macs] at h
  have e := mul512_eval _ _ _ _ _ _ _ _ _ _ _ _ _ _ _ _ s.mem s.cell hd s.ms rfl
  dsimp only at e
  rw [← h] at e
  have e' : (run .cell s mul512).ms.mem = (run .cell s mul512).mem := rfl
  rw [← e', e]
  unfold u512At
  simp [Function.update_apply]

theorem Mul512.spec {a b : Sc4} {l : U512} (h : Mul512 a b l) :
    a.Words ∧ b.Words ∧ l.Words ∧ l.nat = a.nat * b.nat := by
  obtain ⟨s, hs, rfl, rfl, hd, rfl⟩ := h
  have ha := sc4At_words hs (s.reg .rdi)
  have hb := sc4At_words hs (s.reg .rdx)
  rw [mul512_run hs hd]
  exact ⟨ha, hb, Sc4.mulW_spec ha hb⟩

theorem reduceA_exec {pl : ℕ} {v m w m' : ℕ → ℕ} (h7 : v 7 = pl) (h8 : v 8 = scNC0) (h9 : v 9 = scNC1)
    (h : reduceA.Exec (Array pl 8) v m w m') :
    (⟨w 0, w 1, w 2, w 3, w 4, w 5, w 6⟩ : Red1) = Sc4.redA (u512At m pl) := by
  have hacc : ∀ k off, (k, off) ∈ [(7, 0), (7, 8), (7, 16), (7, 24), (7, 32), (7, 40), (7, 48), (7, 56)] →
      Array pl 8 (v k + off) := by
    intro k off hk
    fin_cases hk <;> rw [h7]
    exacts [⟨0, by norm_num, rfl⟩, ⟨1, by norm_num, rfl⟩, ⟨2, by norm_num, rfl⟩, ⟨3, by norm_num, rfl⟩,
      ⟨4, by norm_num, rfl⟩, ⟨5, by norm_num, rfl⟩, ⟨6, by norm_num, rfl⟩, ⟨7, by norm_num, rfl⟩]
  obtain ⟨t, ht, hc, hf, hm, hw, -⟩ := Stmt.exec_ideal reduceA_ok hacc h
  have c8 : t.cell 8 = scNC0 := (hc 8 (.imm scNC0) (by decide)).trans h8
  have c9 : t.cell 9 = scNC1 := (hc 9 (.imm scNC1) (by decide)).trans h9
  have hrsi : t.reg .rsi = pl := (hf 7 .rsi (by decide)).trans h7
  have e := reduceA_eval _ _ _ _ _ _ _ _ _ _ _ _ _ _ _ _ t.mem t.cell c8 c9 t.ms rfl
  dsimp only at e
  rw [← run_macs ht reduceA_macs_ok, ← reduceA_macs, hrsi] at e
  have emem : u512At t.mem pl = u512At m pl := by
    unfold u512At
    rw [hm pl ⟨0, by norm_num, rfl⟩, hm (pl + 8) ⟨1, by norm_num, rfl⟩, hm (pl + 16) ⟨2, by norm_num, rfl⟩,
      hm (pl + 24) ⟨3, by norm_num, rfl⟩, hm (pl + 32) ⟨4, by norm_num, rfl⟩, hm (pl + 40) ⟨5, by norm_num, rfl⟩,
      hm (pl + 48) ⟨6, by norm_num, rfl⟩, hm (pl + 56) ⟨7, by norm_num, rfl⟩]
  rw [emem] at e
  obtain ⟨e0, e1, e2, e3, e4, e5, e6⟩ := e
  rw [← hw 0 true (by decide), ← hw 1 true (by decide), ← hw 2 true (by decide), ← hw 3 false (by decide),
    ← hw 4 false (by decide), ← hw 5 false (by decide), ← hw 6 false (by decide)]
  have es : ∀ k, (run .cell t reduceA.code).cell k = (run .cell t reduceA.code).ms.cell k := fun _ => rfl
  rw [es, es, es, es, es, es, es, e0, e1, e2, e3, e4, e5, e6]

theorem reduceB_exec {v m w m' : ℕ → ℕ} (h12 : v 12 = scNC0) (h13 : v 13 = scNC1)
    (h : reduceB.Exec (fun _ => False) v m w m') :
    (⟨w 0, w 1, w 2, w 3, w 4⟩ : Red2) = Sc4.redB ⟨v 5, v 6, v 7, v 8, v 9, v 10, v 11⟩ := by
  obtain ⟨t, ht, hc, hf, hm, hw, -⟩ := Stmt.exec_ideal reduceB_ok (fun _ _ h => absurd h List.not_mem_nil) h
  have c12 : t.cell 12 = scNC0 := (hc 12 (.imm scNC0) (by decide)).trans h12
  have c13 : t.cell 13 = scNC1 := (hc 13 (.imm scNC1) (by decide)).trans h13
  have e := reduceB_eval _ _ _ _ _ _ _ _ _ _ _ _ _ _ _ _ t.mem t.cell c12 c13 t.ms rfl
  dsimp only at e
  rw [← run_macs ht reduceB_macs_ok, ← reduceB_macs, hc 5 .g (by decide), hc 6 .g (by decide), hc 7 .g (by decide),
    hc 8 .g (by decide), hc 9 .g (by decide), hc 10 .g (by decide), hc 11 .g (by decide)] at e
  obtain ⟨e0, e1, e2, e3, e4⟩ := e
  rw [← hw 0 true (by decide), ← hw 1 true (by decide), ← hw 2 true (by decide), ← hw 3 false (by decide),
    ← hw 4 false (by decide)]
  have es : ∀ k, (run .cell t reduceB.code).cell k = (run .cell t reduceB.code).ms.cell k := fun _ => rfl
  rw [es, es, es, es, es, e0, e1, e2, e3, e4]

theorem reduceC_exec {pr : ℕ} {v m w m' : ℕ → ℕ} (h6 : v 6 = pr) (h7 : v 7 = scNC0) (h8 : v 8 = scNC1)
    (h : reduceC.Exec (Array pr 4) v m w m') :
    ((sc4At m' pr, w 0) : Sc4 × ℕ) = Sc4.redC ⟨v 1, v 2, v 3, v 4, v 5⟩ := by
  have hacc : ∀ k off, (k, off) ∈ [(6, 0), (6, 8), (6, 16), (6, 24)] → Array pr 4 (v k + off) := by
    intro k off hk
    fin_cases hk <;> rw [h6]
    exacts [⟨0, by norm_num, rfl⟩, ⟨1, by norm_num, rfl⟩, ⟨2, by norm_num, rfl⟩, ⟨3, by norm_num, rfl⟩]
  obtain ⟨t, ht, hc, hf, hm, hw, hm'⟩ := Stmt.exec_ideal reduceC_ok hacc h
  have c7 : t.cell 7 = scNC0 := (hc 7 (.imm scNC0) (by decide)).trans h7
  have c8 : t.cell 8 = scNC1 := (hc 8 (.imm scNC1) (by decide)).trans h8
  have c6 : t.cell 6 = pr := (hc 6 (.fixed .rdi) (by decide)).trans h6
  have e := reduceC_eval _ _ _ _ _ _ _ _ _ _ _ _ _ _ _ _ t.mem t.cell c7 c8 t.ms rfl
  dsimp only at e
  rw [← run_macs ht reduceC_macs_ok, ← reduceC_macs, hc 1 .g (by decide), hc 2 .g (by decide), hc 3 .g (by decide),
    hc 4 .g (by decide), hc 5 .g (by decide), c6] at e
  obtain ⟨e1, e2⟩ := e
  have em : (run .cell t reduceC.code).ms.mem = (run .cell t reduceC.code).mem := rfl
  have ec : (run .cell t reduceC.code).ms.cell = (run .cell t reduceC.code).cell := rfl
  rw [em] at e1
  rw [ec, hw 0 false (by decide)] at e2
  rw [e2]
  have hq : sc4At m' pr = (Sc4.redC ⟨v 1, v 2, v 3, v 4, v 5⟩).1 := by
    unfold sc4At
    rw [← hm' pr ⟨0, by norm_num, rfl⟩, ← hm' (pr + 8) ⟨1, by norm_num, rfl⟩, ← hm' (pr + 16) ⟨2, by norm_num, rfl⟩,
      ← hm' (pr + 24) ⟨3, by norm_num, rfl⟩, e1]
    simp [Function.update_apply]
  rw [hq]

theorem Reduce512.spec {l : U512} {r : Sc4} (hl : l.Words) (h : Reduce512 l r) : r.Words ∧ r.nat = l.nat % n := by
  obtain ⟨pl, pr, m₁, m₁', m₂, m₂', m₃, m₃', v₁, w₁, v₂, w₂, v₃, w₃, rfl, h7, h8, h9, hA, hv2, h12, h13, hB, hv3, h36,
    h37, h38, hC, rfl⟩ := h
  have eA := reduceA_exec h7 h8 h9 hA
  have eB := reduceB_exec h12 h13 hB
  have eC := reduceC_exec h36 h37 h38 hC
  have a0 := hv2 0 (by norm_num)
  have a1 := hv2 1 (by norm_num)
  have a2 := hv2 2 (by norm_num)
  have a3 := hv2 3 (by norm_num)
  have a4 := hv2 4 (by norm_num)
  have a5 := hv2 5 (by norm_num)
  have a6 := hv2 6 (by norm_num)
  have b0 := hv3 0 (by norm_num)
  have b1 := hv3 1 (by norm_num)
  have b2 := hv3 2 (by norm_num)
  have b3 := hv3 3 (by norm_num)
  have b4 := hv3 4 (by norm_num)
  simp only [Nat.zero_add, Nat.reduceAdd] at a0 a1 a2 a3 a4 a5 a6 b0 b1 b2 b3 b4
  rw [a0, a1, a2, a3, a4, a5, a6, eA] at eB
  rw [b0, b1, b2, b3, b4, eB] at eC
  exact Sc4.red_spec hl eC

end Asm

end Secp.Model
