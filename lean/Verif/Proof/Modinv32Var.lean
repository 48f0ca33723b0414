import Verif.Proof.Modinv32Const

/-!
The variable-time inversion, on 30-bit limbs.
-/

namespace Secp.Model.M32
open Secp.Divstep

theorem orFold_zero {l : List ℤ} (hl : ∀ a ∈ l, -2 ^ 31 ≤ a ∧ a < 2 ^ 31) : ∀ {c : ℤ}, -2 ^ 31 ≤ c →
    c < 2 ^ 31 → (l.foldl or32 c = 0 ↔ c = 0 ∧ ∀ a ∈ l, a = 0) := by
  induction l with
  | nil => intro c _ _; simp
  | cons a l ih =>
    intro c h1 h2
    have ha := hl a (by simp)
    obtain ⟨r1, r2⟩ := or32_range c a
    rw [List.foldl_cons, ih (fun b hb => hl b (by simp [hb])) r1 r2, or32_eq_zero h1 h2 ha.1 ha.2]
    simp only [List.mem_cons, forall_eq_or_imp]
    exact and_assoc

/-- The test for `g = 0`. -/
theorem gzero_iff {A B : List ℤ} (hA : LowL A) :
    ((A ++ B).getD 0 0 = 0 ∧ orLimbs A.length (A ++ B) = 0) ↔ int30 A = 0 := by
  cases A with
  | nil => exact absurd hA (by simp [LowL])
  | cons a l =>
    have hs := hA.small
    have hr : ∀ b ∈ l, -2 ^ 31 ≤ b ∧ b < 2 ^ 31 := by
      intro b hb
      have := hs b (by simp [hb])
      rw [abs_le] at this
      omega
    unfold orLimbs
    rw [List.take_left, hA.zero]
    have e : (a :: l).drop 1 = l := rfl
    rw [e, orFold_zero hr (by norm_num) (by norm_num)]
    simp

theorem shrinkCond_iff {len : ℕ} {fn gn : ℤ} (hlen : len ≤ 9) (hf : |fn| ≤ 2 ^ 30) (hg : |gn| ≤ 2 ^ 30) :
    shrinkCond len fn gn = 0 ↔ 2 ≤ len ∧ (fn = 0 ∨ fn = -1) ∧ (gn = 0 ∨ gn = -1) := by
  have key : ∀ {x : ℤ}, |x| ≤ 2 ^ 30 → (xor32 x (x / 2 ^ 31) = 0 ↔ x = 0 ∨ x = -1) := by
    intro x hx
    rw [abs_le] at hx
    by_cases h : x < 0
    · rw [sign_neg (by omega) h, xor32_neg_one (by omega) (by omega)]; omega
    · rw [sign_nonneg (by omega) (by omega), xor32_zero (by omega) (by omega)]; omega
  unfold shrinkCond
  obtain ⟨r1, r2⟩ := or32_range (((len : ℤ) - 2) / 2 ^ 31) (xor32 fn (fn / 2 ^ 31))
  obtain ⟨r3, r4⟩ := xor32_range gn (gn / 2 ^ 31)
  obtain ⟨r5, r6⟩ := xor32_range fn (fn / 2 ^ 31)
  rw [or32_eq_zero r1 r2 r3 r4, or32_eq_zero (by omega) (by omega) r5 r6, key hf, key hg]
  have : ((len : ℤ) - 2) / 2 ^ 31 = 0 ↔ 2 ≤ len := by omega
  rw [this]
  exact and_assoc

theorem merge_value {a t : ℤ} (ha : 0 ≤ a ∧ a < 2 ^ 30) (ht : t = 0 ∨ t = -1) :
    or32 a (toI32 (u32 (toU32 t <<< 30) : ℕ)) = a + t * 2 ^ 30 := by
  rcases ht with rfl | rfl
  · have e : toI32 (u32 (toU32 0 <<< 30) : ℕ) = 0 := by decide
    rw [e]
    unfold or32
    rw [toU32_zero, Nat.or_zero, toI32_toU32 (by omega) (by omega)]
    ring
  · have e : toU32 (toI32 (u32 (toU32 (-1) <<< 30) : ℕ)) = 3 * 2 ^ 30 := by decide
    unfold or32
    rw [e]
    have h1 := toU32_cast a
    have h2 : toU32 a < 2 ^ 30 := by omega
    have h3 : toU32 a ||| 3 * 2 ^ 30 = toU32 a + 3 * 2 ^ 30 := by
      rw [Nat.or_comm, mul_comm, ← Nat.two_pow_add_eq_or_of_lt h2]
      ring
    rw [h3]
    unfold toI32
    push_cast
    omega

/-- Dropping the top limb. -/
theorem mergeTop_spec {A B : List ℤ} (hA : LowL A) (h2 : 2 ≤ A.length) {t : ℤ}
    (ht : t = (A ++ B).getD (A.length - 1) 0) (ht' : t = 0 ∨ t = -1) :
    ∃ A' B', mergeTop A.length (A ++ B) t = A' ++ B' ∧ A'.length = A.length - 1 ∧ LowL A' ∧
      int30 A' = int30 A ∧ |int30 A'| ≤ (2 ^ 30) ^ A'.length := by
  obtain ⟨l, a, s, rfl⟩ : ∃ l a s, A = l ++ [a, s] := by
    have hne : A ≠ [] := by rintro rfl; simp at h2
    have hne2 : A.dropLast ≠ [] := by
      intro h
      have := congrArg List.length h
      simp at this
      omega
    refine ⟨A.dropLast.dropLast, A.dropLast.getLast hne2, A.getLast hne, ?_⟩
    have e1 := List.dropLast_append_getLast hne2
    have e2 := List.dropLast_append_getLast hne
    conv_lhs => rw [← e2, ← e1]
    simp
  have hlen : (l ++ [a, s]).length = l.length + 2 := by simp
  have hs : t = s := by
    rw [ht, hlen]
    simp [List.getD_eq_getElem?_getD]
  subst hs
  obtain ⟨h1, h3, h4⟩ := hA.merge ht'
  have hb := int30_bound (A := l ++ [a + t * 2 ^ 30]) (by simp) h3 (by
    rw [List.getLast_append_singleton]; omega)
  refine ⟨l ++ [a + t * 2 ^ 30], t :: B, ?_, by simp, h3, h4, by rw [abs_le]; omega⟩
  unfold mergeTop
  rw [hlen]
  have e1 : (l ++ [a, t] ++ B).getD (l.length + 2 - 2) 0 = a := by
    simp [List.getD_eq_getElem?_getD]
  rw [e1, merge_value h1 ht']
  simp

/-- The state of the variable-time loop: limb lists of which only the first `len` count. -/
structure VarState (M : Modinfo) (m x : ℤ) (S : DS) (len : ℕ) (d e f g A A' B B' : List ℤ) :
    Prop where
  odd : S.f % 2 = 1
  len9 : len ≤ 9
  hf : f = A ++ B
  hg : g = A' ++ B'
  lA : A.length = len
  lA' : A'.length = len
  ne : A ≠ []
  vf : int30 A = S.f
  vg : int30 A' = S.g
  bf : |S.f| ≤ m
  bg : |S.g| ≤ m
  cf : |S.f| ≤ (2 ^ 30) ^ len
  cg : |S.g| ≤ (2 ^ 30) ^ len
  sf : SmallL A
  sg : SmallL A'
  ld : LowL d ∧ d.length = 9
  le : LowL e ∧ e.length = 9
  d1 : -2 * m < int30 d
  d2 : int30 d < m
  e1 : -2 * m < int30 e
  e2 : int30 e < m
  td : int30 d * x ≡ S.f [ZMOD m]
  te : int30 e * x ≡ S.g [ZMOD m]

theorem modinv32VarLoop_spec {M : Modinfo} {m : ℤ} (hM : M.Ok m) {x : ℤ} (k : ℕ) :
    ∀ {N : ℕ} {S : DS} {len : ℕ} {d e f g A A' B B' : List ℤ}, 1 ≤ N → N ≤ k → N ≤ 100 →
    |S.z| + 30 * N ≤ 2 ^ 18 → (run 1 (30 * N) S).g = 0 →
    VarState M m x S len d e f g A A' B B' →
    ∃ d' top j, modinv32VarLoop M k len S.z d e f g = some (d', top) ∧ (LowL d' ∧ d'.length = 9) ∧
      -2 * m < int30 d' ∧ int30 d' < m ∧ (run 1 j S).g = 0 ∧ int30 d' * x ≡ (run 1 j S).f [ZMOD m] ∧
      |top| ≤ 2 ^ 30 ∧ (top < 0 ↔ (run 1 j S).f < 0) ∧ (int30 d = 0 → S.g = 0 → int30 d' = 0) := by
  induction k with
  | zero => intro N S len d e f g A A' B B' h1 h2; omega
  | succ k ih =>
    intro N S len d e f g A A' B B' hN hk hN2 hz hend st
    obtain ⟨hodd, hlen9, rfl, rfl, rfl, lA', ne, vf, vg, bf, bg, cf, cg, sf, sg, ld, le, d1, d2, e1, e2,
      td, te⟩ := st
    have ne' : A' ≠ [] := by
      intro h; rw [h] at lA'
      exact ne (List.eq_nil_of_length_eq_zero (by simpa using lA'.symm))
    have ef := int30_low ne B
    have eg := int30_low ne' B'
    rw [vf] at ef
    rw [vg] at eg
    have hds := divsteps30Var_spec (z := S.z) hodd (by omega) (toU32_lt _) (toU32_lt _) ef eg
    have hinv := mrun_inv 1 (z := S.z) (G := S.g) hodd 30
    have hrz := run_z (κ := 1) (Or.inl rfl) 30 (s := S)
    have hzero : S.g = 0 → (mrun 1 30 ⟨S.z, S.f, S.g⟩).v = 0 ∧ (mrun 1 30 ⟨S.z, S.f, S.g⟩).s.g = 0 := by
      intro h0
      rw [h0, mrun_zero]
      exact ⟨rfl, rfl⟩
    have hs : (mrun 1 30 ⟨S.z, S.f, S.g⟩).s = run 1 30 S := mrun_s 1 30 S
    generalize mrun 1 30 ⟨S.z, S.f, S.g⟩ = mm at *
    obtain ⟨i1, i2, i3, i4, i5⟩ := hinv
    have bf' := row_bound i1 i3 bf bg
    have bg' := row_bound i2 i4 bf bg
    have cf' := row_bound i1 i3 cf cg
    have cg' := row_bound i2 i4 cf cg
    have x1 : 2 ^ 30 * mm.s.f = mm.u * int30 A + mm.v * int30 A' := by rw [vf, vg]; exact i1
    have x2 : 2 ^ 30 * mm.s.g = mm.q * int30 A + mm.r * int30 A' := by rw [vf, vg]; exact i2
    obtain ⟨d', e', ede, ld', le', d1', d2', e1', e2', cd', ce', z'⟩ :=
      updateDe30_spec hM (t := ⟨mm.u, mm.v, mm.q, mm.r⟩) i3 i4 ld.1 le.1 ld.2 le.2 d1 d2 e1 e2
    obtain ⟨F, eF, lF, hF, vF⟩ := fgRow_spec (B := B) (B' := B') i3 ne lA'.symm sf sg x1 cf'
    obtain ⟨Gl, eG, lG, hG, vG⟩ := fgRow_spec (B := B) (B' := B') i4 ne lA'.symm sf sg x2 cg'
    have td' := de_track hM.odd td te cd' i1
    have te' := de_track hM.odd td te ce' i2
    have hFne : F ≠ [] := by rintro rfl; exact ne (List.eq_nil_of_length_eq_zero lF.symm)
    have hGne : Gl ≠ [] := by rintro rfl; exact ne (List.eq_nil_of_length_eq_zero lG.symm)
    have hupd : updateFg30Var A.length (A ++ B) (A' ++ B') ⟨mm.u, mm.v, mm.q, mm.r⟩ =
        some (F ++ B, Gl ++ B') := by
      unfold updateFg30Var
      dsimp only
      rw [eF, Option.bind_some, eG, Option.bind_some, List.drop_left, ← lA', List.drop_left]
    unfold modinv32VarLoop
    rw [hds, Option.bind_some]
    dsimp only
    rw [ede, Option.bind_some]
    dsimp only
    rw [hupd, Option.bind_some]
    dsimp only
    have hgz := gzero_iff (B := B') hG
    rw [lG] at hgz
    have hcd : int30 d = 0 → S.g = 0 → int30 d' = 0 ∧ mm.s.g = 0 := by
      intro h0 hg0
      obtain ⟨v0, g0⟩ := hzero hg0
      exact ⟨z' h0 v0, g0⟩
    have hlastF : (F ++ B).getD (A.length - 1) 0 = F.getLast hFne := by rw [← lF]; exact getD_last hFne
    have hlastG : (Gl ++ B').getD (A.length - 1) 0 = Gl.getLast hGne := by rw [← lG]; exact getD_last hGne
    have tF : |F.getLast hFne| ≤ 2 ^ 30 := hF.small _ (List.getLast_mem hFne)
    have tG : |Gl.getLast hGne| ≤ 2 ^ 30 := hG.small _ (List.getLast_mem hGne)
    by_cases hstop : mm.s.g = 0
    · rw [if_pos (hgz.mpr (by rw [vG]; exact hstop))]
      refine ⟨d', _, 30, rfl, ld', d1', d2', ?_, ?_, ?_, ?_, ?_⟩
      · rw [← hs]; exact hstop
      · rw [← hs]; exact td'
      · rw [hlastF]; exact tF
      · rw [hlastF, hF.sign, vF, hs]
      · exact fun h0 hg0 => (hcd h0 hg0).1
    · rw [if_neg (fun h => hstop (by rw [← vG]; exact hgz.mp h))]
      have hN1 : N ≠ 1 := by
        rintro rfl
        apply hstop
        rw [hs]; exact hend
      have hrec : ∀ {len' : ℕ} {f' g' C C' D D' : List ℤ},
          VarState M m x mm.s len' d' e' f' g' C C' D D' →
          ∃ d'' top j, modinv32VarLoop M k len' mm.s.z d' e' f' g' = some (d'', top) ∧ (LowL d'' ∧ d''.length = 9) ∧
            -2 * m < int30 d'' ∧ int30 d'' < m ∧ (run 1 j S).g = 0 ∧
            int30 d'' * x ≡ (run 1 j S).f [ZMOD m] ∧ |top| ≤ 2 ^ 30 ∧ (top < 0 ↔ (run 1 j S).f < 0) ∧
            (int30 d = 0 → S.g = 0 → int30 d'' = 0) := by
        intro len' f' g' C C' D D' st'
        obtain ⟨d'', top, j, q1, q2, q3, q4, q5, q6, q7, q8, q9⟩ := ih (N := N - 1) (by omega) (by omega)
          (by omega) (by rw [hs]; omega)
          (by rw [hs, ← run_add, show 30 + 30 * (N - 1) = 30 * N by omega]; exact hend) st'
        refine ⟨d'', top, 30 + j, q1, q2, q3, q4, ?_, ?_, q7, ?_, ?_⟩
        · rw [run_add, ← hs]; exact q5
        · rw [run_add, ← hs]; exact q6
        · rw [run_add, ← hs]; exact q8
        · intro h0 hg0
          obtain ⟨a, b⟩ := hcd h0 hg0
          exact q9 a b
      rw [hlastF, hlastG]
      have hsc := shrinkCond_iff hlen9 tF tG
      by_cases hsh : shrinkCond A.length (F.getLast hFne) (Gl.getLast hGne) = 0
      · rw [if_pos hsh]
        obtain ⟨s1, s2, s3⟩ := hsc.mp hsh
        obtain ⟨C, D, eC, lC, hC, vC, bC⟩ := mergeTop_spec (B := B) hF (by omega) (t := F.getLast hFne)
          (getD_last hFne).symm s2
        obtain ⟨C', D', eC', lC', hC', vC', bC'⟩ := mergeTop_spec (B := B') hG (by omega) (t := Gl.getLast hGne)
          (getD_last hGne).symm s3
        rw [lF] at eC lC
        rw [lG] at eC' lC'
        rw [eC, eC']
        rw [vC, vF, lC] at bC
        rw [vC', vG, lC'] at bC'
        exact hrec ⟨i5, by omega, rfl, rfl, lC, lC', by rintro rfl; exact hC, by rw [vC, vF],
          by rw [vC', vG], bf', bg', bC, bC', hC.small, hC'.small, ld', le', d1', d2', e1', e2', td', te'⟩
      · rw [if_neg hsh]
        exact hrec ⟨i5, hlen9, rfl, rfl, lF, lG, hFne, vF, vG, bf', bg', cf', cg', hF.small, hG.small,
          ld', le', d1', d2', e1', e2', td', te'⟩

/-- The variable-time inversion ends after at most 25 iterations. -/
theorem modinv32Var_spec {M : Modinfo} {m : ℤ} (hM : M.Ok m) {x : List ℤ} (hx : Canon x)
    (h1 : int30 x < m) {fuel : ℕ} (hfuel : 25 ≤ fuel) :
    ∃ r, modinv32Var fuel x M = some r ∧ Canon r ∧ 0 ≤ int30 r ∧ int30 r < m ∧
      (int30 x = 0 → int30 r = 0) ∧ (IsCoprime (int30 x) m → int30 r * int30 x ≡ 1 [ZMOD m]) := by
  have hm1 := hM.ge
  have hm2 := hM.le
  have h0 : 0 ≤ int30 x := int30_nonneg hx.limb
  have v0 : int30 [0, 0, 0, 0, 0, 0, 0, 0, 0] = 0 := by simp [int30]
  have v1 : int30 [1, 0, 0, 0, 0, 0, 0, 0, 0] = 1 := by simp [int30]
  have hr := run_extend (62 * 12) 6 (reach1 hM.odd h0 h1.le hm2)
  have habs : |int30 x| ≤ m := by rw [abs_of_nonneg h0]; exact h1.le
  have hmabs : |m| ≤ m := by rw [abs_of_nonneg (by omega)]
  have hm3 : m ≤ (2 ^ 30) ^ 9 := hm2.trans (by norm_num)
  obtain ⟨d, top, j, e1, e2, e3, e4, e5, e6, e7, e8, e9⟩ := modinv32VarLoop_spec hM (x := int30 x) fuel
    (N := 25) (S := ⟨-1, m, int30 x⟩) (len := 9) (d := [0, 0, 0, 0, 0, 0, 0, 0, 0])
    (e := [1, 0, 0, 0, 0, 0, 0, 0, 0])
    (f := M.modulus) (g := x) (A := M.modulus) (A' := x) (B := []) (B' := [])
    (by norm_num) hfuel (by norm_num) (by norm_num) hr
    ⟨hM.odd, le_refl _, by simp, by simp, hM.len, hx.len,
      by intro h; have := hM.len; rw [h] at this; simp at this,
      hM.val, rfl, hmabs, habs, hmabs.trans hm3, habs.trans hm3, hM.small, hx.small,
      ⟨by simp [LowL], rfl⟩, ⟨by simp [LowL], rfl⟩,
      by rw [v0]; omega, by rw [v0]; omega, by rw [v1]; omega, by rw [v1]; omega,
      by
        rw [v0, Int.modEq_iff_dvd]
        exact ⟨1, by ring⟩,
      by rw [v1, one_mul]⟩
  rw [abs_le] at e7
  obtain ⟨r, q1, q2, q3, q4, q5, q6⟩ := normalize30_spec hM e2.1 e2.2 e3 e4 (sign := top)
    (by omega) (by omega)
  refine ⟨r, ?_, q2, q3, q4, ?_, ?_⟩
  · unfold modinv32Var
    rw [e1, Option.bind_some]
    exact q1
  · intro hx0
    exact q6 (e9 v0 hx0)
  · intro hcop
    have hu := unit_of_run (j := j) hM.odd hcop e5
    have key : int30 r * int30 x ≡ (if top < 0 then -1 else 1) * (run 1 j ⟨-1, m, int30 x⟩).f [ZMOD m] := by
      calc int30 r * int30 x ≡ (if top < 0 then -1 else 1) * int30 d * int30 x [ZMOD m] := q5.mul_right _
        _ = (if top < 0 then -1 else 1) * (int30 d * int30 x) := by ring
        _ ≡ _ [ZMOD m] := e6.mul_left _
    refine key.trans ?_
    rcases hu with hu | hu
    · rw [hu] at e8 ⊢
      rw [if_neg (by rw [e8]; norm_num)]
      rfl
    · rw [hu] at e8 ⊢
      rw [if_pos (by rw [e8]; norm_num)]
      rfl

end Secp.Model.M32
