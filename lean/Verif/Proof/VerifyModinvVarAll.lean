import Verif.Proof.VerifyModinvVar

/-!
The loop of the variable-time modular inverse with all its checks.
-/

namespace Secp.Model.Verify
open Secp Secp.Divstep

theorem fgVarRowLoopV_ok {u v : ℤ} (huv : |u| + |v| ≤ 2 ^ 62) : ∀ {fs gs : List ℤ} {c : ℤ},
    fs.length = gs.length → SmallL fs → SmallL gs → |c| ≤ 2 ^ 70 →
    |c + u * limbsInt fs + v * limbsInt gs| ≤ 2 ^ 62 * (2 ^ 62) ^ fs.length →
    fgVarRowLoopV u v fs gs c = fgVarRowLoop u v fs gs c
  | [], [], c, _, _, _, hc, hb => by
    have hb' : |c| ≤ 2 ^ 62 := by simpa [limbsInt] using hb
    rw [abs_le] at hb'
    have e : i128ToI64 c = c := by
      unfold i128ToI64
      exact toI64_eq (by omega) (by omega)
    unfold fgVarRowLoopV fgVarRowLoop
    rw [i128ToI64V_ok (by omega) (by omega), Option.bind_some, e]
  | f :: fs, g :: gs, c, hl, hf, hg, hc, hb => by
    have hf0 := hf f (by simp)
    have hg0 := hg g (by simp)
    have hfs : SmallL fs := fun a ha => hf a (by simp [ha])
    have hgs : SmallL gs := fun a ha => hg a (by simp [ha])
    have e1 := accum2_some (c := c) huv hf0 hg0 (by omega)
    have b1 := (dot_le huv hf0 hg0).2.2
    obtain ⟨c1, hc1⟩ : ∃ c1, c1 = c + (u * f + v * g) := ⟨_, rfl⟩
    rw [← hc1] at e1
    have hcb : |c1| ≤ 2 ^ 127 := by rw [hc1]; rw [abs_le] at *; omega
    have hs := shift_bound hcb
    have hX : c + u * limbsInt (f :: fs) + v * limbsInt (g :: gs) =
        c1 + 2 ^ 62 * (u * limbsInt fs + v * limbsInt gs) := by
      rw [hc1]; simp only [limbsInt]; ring
    rw [hX] at hb
    have hb2 : |c1 / 2 ^ 62 + u * limbsInt fs + v * limbsInt gs| ≤ 2 ^ 62 * (2 ^ 62) ^ fs.length := by
      rw [List.length_cons, pow_succ ((2 : ℤ) ^ 62)] at hb
      have hp : (0 : ℤ) < (2 ^ 62) ^ fs.length := by positivity
      generalize ((2 : ℤ) ^ 62) ^ fs.length = B at *
      rw [add_assoc]
      generalize u * limbsInt fs + v * limbsInt gs = Y at *
      rw [abs_le] at *
      omega
    have ih := fgVarRowLoopV_ok huv (c := c1 / 2 ^ 62) (by simpa using hl) hfs hgs
      (by unfold i128Rshift62 at hs; omega) hb2
    unfold fgVarRowLoopV fgVarRowLoop
    rw [e1, Option.bind_some, Option.bind_some]
    unfold i128Rshift62
    rw [ih]

theorem fgVarRowV_ok {u v x : ℤ} (huv : |u| + |v| ≤ 2 ^ 62) {A B A' B' : List ℤ}
    (hA : A ≠ []) (hl : A.length = A'.length) (hs : SmallL A) (hs' : SmallL A')
    (h : 2 ^ 62 * x = u * limbsInt A + v * limbsInt A') (hx : |x| ≤ (2 ^ 62) ^ A.length) :
    fgVarRowV u v A.length (A ++ B) (A' ++ B') = fgVarRow u v A.length (A ++ B) (A' ++ B') := by
  obtain ⟨a, fs, rfl⟩ := List.exists_cons_of_ne_nil hA
  obtain ⟨b, gs, rfl⟩ := List.exists_cons_of_ne_nil (l := A') (by rintro rfl; simp at hl)
  have hf0 := hs a (by simp)
  have hg0 := hs' b (by simp)
  have hfs : SmallL fs := fun y hy => hs y (by simp [hy])
  have hgs : SmallL gs := fun y hy => hs' y (by simp [hy])
  have e1 := mul2_some huv hf0 hg0
  have b1 := (dot_le huv hf0 hg0).2.2
  obtain ⟨c1, hc1⟩ : ∃ c1, c1 = u * a + v * b := ⟨_, rfl⟩
  rw [← hc1] at e1 b1
  have hsb := shift_bound (c := c1) (by omega)
  have hX : 2 ^ 62 * x = c1 + 2 ^ 62 * (u * limbsInt fs + v * limbsInt gs) := by
    rw [h, hc1]; simp only [limbsInt]; ring
  have hX' : c1 / 2 ^ 62 + u * limbsInt fs + v * limbsInt gs = x := by
    rw [add_assoc]
    generalize u * limbsInt fs + v * limbsInt gs = Y at *
    omega
  have hlow : c1 % 2 ^ 62 = 0 := by
    generalize u * limbsInt fs + v * limbsInt gs = Y at *
    omega
  have er := fgVarRowLoopV_ok huv (c := c1 / 2 ^ 62) (fs := fs) (gs := gs)
    (by simpa using hl) hfs hgs (by unfold i128Rshift62 at hsb; omega) (by
      rw [hX']
      rw [List.length_cons, pow_succ ((2 : ℤ) ^ 62), mul_comm] at hx
      exact hx)
  unfold fgVarRow fgVarRowV
  have t1 : ((a :: fs ++ B).take (a :: fs).length).drop 1 = fs := by
    rw [List.take_left]; rfl
  have t2 : ((b :: gs ++ B').take (a :: fs).length).drop 1 = gs := by
    rw [hl, List.take_left]; rfl
  rw [t1, t2, ← Option.bind_assoc]
  have g1 : (a :: fs ++ B).getD 0 0 = a := rfl
  have g2 : (b :: gs ++ B').getD 0 0 = b := rfl
  rw [g1, g2, e1, Option.bind_some]
  refine bind_step rfl (bind_step (check_true (decide_eq_true ?_)) er)
  have := toU64_land_m62 c1
  omega

theorem updateFg62VarV_ok {t : Trans} {x y : ℤ} (huv : |t.u| + |t.v| ≤ 2 ^ 62) (hqr : |t.q| + |t.r| ≤ 2 ^ 62)
    {A B A' B' : List ℤ} (hA : A ≠ []) (hl : A.length = A'.length) (hs : SmallL A) (hs' : SmallL A')
    (h : 2 ^ 62 * x = t.u * limbsInt A + t.v * limbsInt A') (hx : |x| ≤ (2 ^ 62) ^ A.length)
    (h' : 2 ^ 62 * y = t.q * limbsInt A + t.r * limbsInt A') (hy : |y| ≤ (2 ^ 62) ^ A.length) :
    updateFg62VarV A.length (A ++ B) (A' ++ B') t = updateFg62Var A.length (A ++ B) (A' ++ B') t := by
  unfold updateFg62VarV updateFg62Var
  refine bind_step (check_true (decide_eq_true (List.length_pos_of_ne_nil hA))) ?_
  rw [fgVarRowV_ok huv hA hl hs hs' h hx, fgVarRowV_ok hqr hA hl hs hs' h' hy]
  rfl

theorem modinv64VarLoopV_ok {M : Modinfo} {m : ℤ} (hM : M.Ok m) {x : ℤ} (k : ℕ) :
    ∀ {N i : ℕ} {S : DS} {len : ℕ} {d e : S62} {f g A A' B B' : List ℤ}, 1 ≤ N → N ≤ k → i + N = 12 →
    |S.z| ≤ 1 + 62 * i → (Divstep.run 1 (62 * N) S).g = 0 →
    -m < S.f → S.f ≤ m → -m < S.g → S.g < m →
    VarState M m x S len d e f g A A' B B' →
    ∃ d' F F' B₁ B₂ j, modinv64VarLoopV M k i len S.z d e f g = some (d', F.length, F ++ B₁, F' ++ B₂) ∧
      modinv64VarLoop M k len S.z d e f g = some (d', (F ++ B₁).getD (F.length - 1) 0) ∧ d'.Low ∧
      -2 * m < d'.int ∧ d'.int < m ∧ F.length ≤ 5 ∧ F'.length = F.length ∧ SmallL F ∧ SmallL F' ∧
      limbsInt F = (Divstep.run 1 j S).f ∧ limbsInt F' = 0 ∧ (Divstep.run 1 j S).g = 0 ∧
      |(F ++ B₁).getD (F.length - 1) 0| ≤ 2 ^ 62 ∧ (d.int = 0 → S.g = 0 → d'.int = 0) := by
  induction k with
  | zero => intro N i S len d e f g A A' B B' h1 h2; omega
  | succ k ih =>
    intro N i S len d e f g A A' B B' hN hk hiN hz hend f1 f2 g1 g2 st
    obtain ⟨hodd, hlen5, rfl, rfl, rfl, lA', ne, vf, vg, bf, bg, cf, cg, sf, sg, ld, le, d1, d2, e1, e2,
      td, te⟩ := st
    have ne' : A' ≠ [] := by
      intro h; rw [h] at lA'
      exact ne (List.eq_nil_of_length_eq_zero (by simpa using lA'.symm))
    have ef := limbsInt_low ne B
    have eg := limbsInt_low ne' B'
    rw [vf] at ef
    rw [vg] at eg
    have hds := divsteps62Var_spec (z := S.z) hodd (by omega) (toU64_lt _) (toU64_lt _) ef eg
    have hdv := divsteps62VarV_ok (z := S.z) (f0 := toU64 ((A ++ B).getD 0 0)) (g0 := toU64 ((A' ++ B').getD 0 0))
      (by have := ef.parity (by norm_num); omega) (toU64_lt _) (toU64_lt _) (by omega)
    rw [hds] at hdv
    have hinv := mrun_inv 1 (z := S.z) (G := S.g) hodd 62
    have hrz := run_z (κ := 1) (Or.inl rfl) 62 (s := S)
    have hrr := run_range 1 62 hodd f1 f2 g1 g2
    have hzero : S.g = 0 → (mrun 1 62 ⟨S.z, S.f, S.g⟩).v = 0 ∧ (mrun 1 62 ⟨S.z, S.f, S.g⟩).s.g = 0 := by
      intro h0
      rw [h0, mrun_zero]
      exact ⟨rfl, rfl⟩
    have hs : (mrun 1 62 ⟨S.z, S.f, S.g⟩).s = Divstep.run 1 62 S := mrun_s 1 62 S
    generalize mrun 1 62 ⟨S.z, S.f, S.g⟩ = mm at *
    rw [← hs] at hrr
    obtain ⟨r1, r2, r3, r4⟩ := hrr
    obtain ⟨i1, i2, i3, i4, i5⟩ := hinv
    have bf' := row_bound i1 i3 bf bg
    have bg' := row_bound i2 i4 bf bg
    have cf' := row_bound i1 i3 cf cg
    have cg' := row_bound i2 i4 cf cg
    have x1 : 2 ^ 62 * mm.s.f = mm.u * limbsInt A + mm.v * limbsInt A' := by rw [vf, vg]; exact i1
    have x2 : 2 ^ 62 * mm.s.g = mm.q * limbsInt A + mm.r * limbsInt A' := by rw [vf, vg]; exact i2
    obtain ⟨d', e', vde, ede, ld', le', d1', d2', e1', e2', cd', ce', z'⟩ :=
      updateDe62V_ok hM (t := ⟨mm.u, mm.v, mm.q, mm.r⟩) i3 i4 ld le d1 d2 e1 e2
    obtain ⟨F, eF, lF, hF, vF⟩ := fgVarRow_spec (B := B) (B' := B') i3 ne lA'.symm sf sg x1 cf'
    obtain ⟨Gl, eG, lG, hG, vG⟩ := fgVarRow_spec (B := B) (B' := B') i4 ne lA'.symm sf sg x2 cg'
    have td' := de_track hM.odd td te cd' i1
    have te' := de_track hM.odd td te ce' i2
    have hFne : F ≠ [] := by rintro rfl; exact ne (List.eq_nil_of_length_eq_zero lF.symm)
    have hGne : Gl ≠ [] := by rintro rfl; exact ne (List.eq_nil_of_length_eq_zero lG.symm)
    have hupd : updateFg62Var A.length (A ++ B) (A' ++ B') ⟨mm.u, mm.v, mm.q, mm.r⟩ =
        some (F ++ B, Gl ++ B') := by
      unfold updateFg62Var
      dsimp only
      rw [eF, Option.bind_some, eG, Option.bind_some, List.drop_left, ← lA', List.drop_left]
    have hupdV : updateFg62VarV A.length (A ++ B) (A' ++ B') ⟨mm.u, mm.v, mm.q, mm.r⟩ =
        some (F ++ B, Gl ++ B') := by
      rw [updateFg62VarV_ok (t := ⟨mm.u, mm.v, mm.q, mm.r⟩) i3 i4 ne lA'.symm sf sg x1 cf' x2 cg', hupd]
    have ck1 : fgCheckLen A.length (A ++ B) (A' ++ B') M = some () :=
      fgCheckLen_ok hM hlen5 lA' sf sg (by rw [vf]; exact f1) (by rw [vf]; exact f2) (by rw [vg]; exact g1)
        (by rw [vg]; exact g2)
    unfold modinv64VarLoop modinv64VarLoopV
    rw [hds, Option.bind_some]
    dsimp only
    rw [ede, Option.bind_some]
    dsimp only
    rw [hupd, Option.bind_some]
    dsimp only
    have hgz := gzero_iff (B := B') hG
    rw [lG] at hgz
    have hcd : d.int = 0 → S.g = 0 → d'.int = 0 ∧ mm.s.g = 0 := by
      intro h0 hg0
      obtain ⟨v0, g0⟩ := hzero hg0
      exact ⟨z' h0 v0, g0⟩
    have hlastF : (F ++ B).getD (A.length - 1) 0 = F.getLast hFne := by rw [← lF]; exact getD_last hFne
    have hlastG : (Gl ++ B').getD (A.length - 1) 0 = Gl.getLast hGne := by rw [← lG]; exact getD_last hGne
    have tF : |F.getLast hFne| ≤ 2 ^ 62 := hF.small _ (List.getLast_mem hFne)
    have tG : |Gl.getLast hGne| ≤ 2 ^ 62 := hG.small _ (List.getLast_mem hGne)
    by_cases hstop : mm.s.g = 0
    · have hc := hgz.mpr (by rw [vG]; exact hstop)
      rw [if_pos hc]
      refine ⟨d', F, Gl, B, B', 62, ?_, ?_, ld', d1', d2', by omega, by omega, hF.small, hG.small, ?_, ?_, ?_, ?_, ?_⟩
      · refine bind_step hdv (bind_step vde (bind_step ck1 (bind_step hupdV ?_)))
        dsimp only
        rw [if_pos hc, lF]
      · rw [lF]
      · rw [vF, hs]
      · rw [vG, hstop]
      · rw [← hs]; exact hstop
      · rw [lF, hlastF]; exact tF
      · exact fun h0 hg0 => (hcd h0 hg0).1
    · have hc := fun h => hstop (by rw [← vG]; exact hgz.mp h)
      rw [if_neg hc]
      have hN1 : N ≠ 1 := by
        rintro rfl
        apply hstop
        rw [hs]; exact hend
      have hcnt : check (decide (i + 1 < 12)) = some () := check_true (decide_eq_true (by omega))
      have hrec : ∀ {len' : ℕ} {f' g' C C' D D' : List ℤ},
          VarState M m x mm.s len' d' e' f' g' C C' D D' →
          ∃ d'' F F' B₁ B₂ j, modinv64VarLoopV M k (i + 1) len' mm.s.z d' e' f' g' =
              some (d'', F.length, F ++ B₁, F' ++ B₂) ∧
            modinv64VarLoop M k len' mm.s.z d' e' f' g' = some (d'', (F ++ B₁).getD (F.length - 1) 0) ∧ d''.Low ∧
            -2 * m < d''.int ∧ d''.int < m ∧ F.length ≤ 5 ∧ F'.length = F.length ∧ SmallL F ∧ SmallL F' ∧
            limbsInt F = (Divstep.run 1 j S).f ∧ limbsInt F' = 0 ∧ (Divstep.run 1 j S).g = 0 ∧
            |(F ++ B₁).getD (F.length - 1) 0| ≤ 2 ^ 62 ∧ (d.int = 0 → S.g = 0 → d''.int = 0) := by
        intro len' f' g' C C' D D' st'
        obtain ⟨d'', F₁, F₂, B₁, B₂, j, q1, q2, q3, q4, q5, q6, q7, q8, q9, q10, q11, q12, q13, q14⟩ :=
          ih (N := N - 1) (i := i + 1) (by omega) (by omega)
          (by omega) (by rw [hs]; push_cast; omega)
          (by rw [hs, ← run_add, show 62 + 62 * (N - 1) = 62 * N by omega]; exact hend) r1 r2 r3 r4 st'
        refine ⟨d'', F₁, F₂, B₁, B₂, 62 + j, q1, q2, q3, q4, q5, q6, q7, q8, q9, ?_, q11, ?_, q13, ?_⟩
        · rw [run_add, ← hs]; exact q10
        · rw [run_add, ← hs]; exact q12
        · intro h0 hg0
          obtain ⟨a, b⟩ := hcd h0 hg0
          exact q14 a b
      rw [hlastF, hlastG]
      have hsc := shrinkCond_iff hlen5 tF tG
      by_cases hsh : shrinkCond A.length (F.getLast hFne) (Gl.getLast hGne) = 0
      · rw [if_pos hsh]
        obtain ⟨s1, s2, s3⟩ := hsc.mp hsh
        obtain ⟨C, D, eC, lC, hC, vC, bC⟩ := mergeTop_spec (B := B) hF (by omega) (t := F.getLast hFne)
          (getD_last hFne).symm s2
        obtain ⟨C', D', eC', lC', hC', vC', bC'⟩ := mergeTop_spec (B := B') hG (by omega) (t := Gl.getLast hGne)
          (getD_last hGne).symm s3
        rw [lF] at eC lC
        rw [lG] at eC' lC'
        rw [eC, eC']
        rw [vC, vF, lC] at bC
        rw [vC', vG, lC'] at bC'
        have ck2 : fgCheckLen (A.length - 1) (C ++ D) (C' ++ D') M = some () := by
          rw [← lC]
          exact fgCheckLen_ok hM (by omega) (by omega) hC.small hC'.small (by rw [vC, vF]; exact r1)
            (by rw [vC, vF]; exact r2) (by rw [vC', vG]; exact r3) (by rw [vC', vG]; exact r4)
        obtain ⟨d'', F₁, F₂, B₁, B₂, j, q1, q⟩ := hrec (len' := A.length - 1) (f' := C ++ D) (g' := C' ++ D')
          (C := C) (C' := C') (D := D) (D' := D') ⟨i5, by omega, rfl, rfl, lC, lC', by rintro rfl; exact hC,
          by rw [vC, vF], by rw [vC', vG], bf', bg', bC, bC', hC.small, hC'.small, ld', le', d1', d2', e1', e2',
          td', te'⟩
        refine ⟨d'', F₁, F₂, B₁, B₂, j, ?_, q⟩
        refine bind_step hdv (bind_step vde (bind_step ck1 (bind_step hupdV ?_)))
        dsimp only
        rw [if_neg hc, hlastF, hlastG, if_pos hsh, eC, eC']
        exact bind_step hcnt (bind_step ck2 q1)
      · rw [if_neg hsh]
        have ck2 : fgCheckLen A.length (F ++ B) (Gl ++ B') M = some () := by
          rw [← lF]
          exact fgCheckLen_ok hM (by omega) (by omega) hF.small hG.small (by rw [vF]; exact r1)
            (by rw [vF]; exact r2) (by rw [vG]; exact r3) (by rw [vG]; exact r4)
        obtain ⟨d'', F₁, F₂, B₁, B₂, j, q1, q⟩ := hrec ⟨i5, hlen5, rfl, rfl, lF, lG, hFne, vF, vG, bf', bg', cf', cg',
          hF.small, hG.small, ld', le', d1', d2', e1', e2', td', te'⟩
        refine ⟨d'', F₁, F₂, B₁, B₂, j, ?_, q⟩
        refine bind_step hdv (bind_step vde (bind_step ck1 (bind_step hupdV ?_)))
        dsimp only
        rw [if_neg hc, hlastF, hlastG, if_neg hsh]
        exact bind_step hcnt (bind_step ck2 q1)

/-- The variable-time inversion with its checks. -/
theorem modinv64VarV_iff {M : Modinfo} {m : ℤ} (hM : M.Ok m) {x : S62} (hx : x.Canon) (h1 : x.int < m) {fuel : ℕ}
    (hfuel : 12 ≤ fuel) :
    ((x.int = 0 ∨ IsCoprime x.int m) → modinv64VarV fuel x M = modinv64Var fuel x M) ∧
    (¬ (x.int = 0 ∨ IsCoprime x.int m) → modinv64VarV fuel x M = none) := by
  have hm1 := hM.ge
  have hm2 := hM.le
  have h0 : 0 ≤ x.int := by
    obtain ⟨a, b, c, d, e⟩ := hx
    unfold S62.int
    omega
  have hr := reach1 hM.odd h0 h1.le hm2
  have habs : |x.int| ≤ m := by rw [abs_of_nonneg h0]; exact h1.le
  have hmabs : |m| ≤ m := by rw [abs_of_nonneg (by omega)]
  obtain ⟨d, F, G, B₁, B₂, j, e0, e1, e2, e3, e4, l1, l2, sF, sG, vF, vG, e5, e7, e9⟩ :=
    modinv64VarLoopV_ok hM (x := x.int) fuel
    (N := 12) (i := 0) (S := ⟨-1, m, x.int⟩) (len := 5) (d := ⟨0, 0, 0, 0, 0⟩) (e := ⟨1, 0, 0, 0, 0⟩)
    (f := M.modulus.toList) (g := x.toList) (A := M.modulus.toList) (A' := x.toList) (B := []) (B' := [])
    (by norm_num) hfuel (by norm_num) (by norm_num) hr (by dsimp only; omega) (le_refl _) (by dsimp only; omega) h1
    ⟨hM.odd, le_refl _, by simp, by simp, rfl, rfl, by simp [S62.toList],
      by rw [limbsInt_toList, hM.val], limbsInt_toList x, hmabs, habs,
      hmabs.trans (hm2.trans (by norm_num)), habs.trans (hm2.trans (by norm_num)), hM.small.toList,
      hx.small.toList,
      ⟨by norm_num, by norm_num, by norm_num, by norm_num⟩,
      ⟨by norm_num, by norm_num, by norm_num, by norm_num⟩,
      by simp [S62.int]; omega, by simp [S62.int]; omega, by simp [S62.int]; omega,
      by simp [S62.int]; omega,
      by
        rw [Int.modEq_iff_dvd]
        refine ⟨1, ?_⟩
        simp [S62.int],
      by simp [S62.int]⟩
  have rr := run_range 1 j (s := ⟨-1, m, x.int⟩) (m := m) hM.odd (by dsimp only; omega) (le_refl _)
    (by dsimp only; omega) h1
  have pF := padS_small sF
  have pG := padS_small sG
  have iF := padS_int l1
  have iG := padS_int (A := G) (by omega)
  rw [vF] at iF
  rw [vG] at iG
  have id : |d.int| ≤ 2 ^ 300 := by rw [abs_le]; constructor <;> omega
  have bF : |(padS F).int| ≤ 2 ^ 300 := by rw [iF, abs_le]; constructor <;> omega
  have bG : |(padS G).int| ≤ 2 ^ 300 := by rw [iG]; norm_num
  have fc := finalCheck_iff hM hx.small (e2.small id) pF pG (by rw [abs_le]; constructor <;> omega) id bF iG
  rw [← finalCheckLen_ok (B := B₁) (B' := B₂) l2 pF pG bF bG] at fc
  constructor
  · intro hc
    have hcond : (padS F).int = -1 ∨ (padS F).int = 1 ∨ (x.int = 0 ∧ d.int = 0 ∧ (padS F).int = m) := by
      rcases hc with hc | hc
      · refine Or.inr (Or.inr ⟨hc, e9 (by simp [S62.int]) hc, ?_⟩)
        rw [iF, hc, run_g_zero]
      · rcases unit_of_run (j := j) hM.odd hc e5 with h | h
        · exact Or.inr (Or.inl (by rw [iF, h]))
        · exact Or.inl (by rw [iF, h])
    rw [if_pos hcond] at fc
    rw [abs_le] at e7
    unfold modinv64VarV
    refine bind_step e0 (bind_step fc ?_)
    dsimp only
    rw [normalize62V_ok hM e2 e3 e4 (by omega) (by omega)]
    unfold modinv64Var
    rw [e1, Option.bind_some]
  · intro hc
    rw [if_neg] at fc
    · unfold modinv64VarV
      refine bind_step e0 ?_
      dsimp only
      rw [fc]
      rfl
    · rintro (h | h | ⟨h, -, -⟩)
      · exact hc (Or.inr (coprime_of_unit hM.odd (Or.inr (by rw [← h, iF]))))
      · exact hc (Or.inr (coprime_of_unit hM.odd (Or.inl (by rw [← h, iF]))))
      · exact hc (Or.inl h)

end Secp.Model.Verify
