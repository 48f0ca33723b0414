import Verif.Proof.Modinv64VarSteps
import Verif.Proof.Modinv64Const

/-!
The variable-time inversion.
-/

namespace Secp.Model
open Secp.Divstep

/-! ### Limb lists of varying length -/

/-- All limbs at most `2^62` in absolute value. -/
def SmallL (l : List ℤ) : Prop := ∀ a ∈ l, |a| ≤ 2 ^ 62

/-- All limbs but the last in `[0, 2^62)`, the last one small. -/
def LowL : List ℤ → Prop
  | [] => False
  | [a] => |a| ≤ 2 ^ 62
  | a :: b :: l => (0 ≤ a ∧ a < 2 ^ 62) ∧ LowL (b :: l)

theorem LowL.small : ∀ {l : List ℤ}, LowL l → SmallL l
  | [a], h => by
    intro b hb
    rw [List.mem_singleton] at hb
    rw [hb]; exact h
  | a :: b :: l, h => by
    intro c hc
    rcases List.mem_cons.mp hc with rfl | hc
    · rw [abs_le]; obtain ⟨h1, -⟩ := h; omega
    · exact LowL.small h.2 c hc

theorem LowL.zero : ∀ {l : List ℤ}, LowL l → (limbsInt l = 0 ↔ ∀ a ∈ l, a = 0)
  | [a], _ => by simp [limbsInt]
  | a :: b :: l, h => by
    have ih := LowL.zero h.2
    obtain ⟨h1, -⟩ := h
    constructor
    · intro h0
      have e : limbsInt (a :: b :: l) = a + 2 ^ 62 * limbsInt (b :: l) := rfl
      rw [e] at h0
      have ha : a = 0 := by omega
      have hr : limbsInt (b :: l) = 0 := by omega
      intro c hc
      rcases List.mem_cons.mp hc with rfl | hc
      · exact ha
      · exact ih.mp hr c hc
    · intro h0
      have e : limbsInt (a :: b :: l) = a + 2 ^ 62 * limbsInt (b :: l) := rfl
      rw [e, h0 a (by simp), ih.mpr (fun c hc => h0 c (by simp only [List.mem_cons] at hc ⊢; tauto))]
      norm_num

theorem LowL.sign : ∀ {l : List ℤ} (h : l ≠ []), LowL l → (l.getLast h < 0 ↔ limbsInt l < 0)
  | [a], _, _ => by simp [limbsInt]
  | a :: b :: l, _, h => by
    have ih := LowL.sign (l := b :: l) (by simp) h.2
    obtain ⟨h1, -⟩ := h
    rw [List.getLast_cons (by simp), ih]
    have e : limbsInt (a :: b :: l) = a + 2 ^ 62 * limbsInt (b :: l) := rfl
    rw [e]
    omega

/-- Merging the top limb into the one below it. -/
theorem LowL.merge : ∀ {l : List ℤ} {a t : ℤ}, LowL (l ++ [a, t]) → (t = 0 ∨ t = -1) →
    (0 ≤ a ∧ a < 2 ^ 62) ∧ LowL (l ++ [a + t * 2 ^ 62]) ∧
      limbsInt (l ++ [a + t * 2 ^ 62]) = limbsInt (l ++ [a, t])
  | [], a, t, h, ht => by
    have h1 : 0 ≤ a ∧ a < 2 ^ 62 := h.1
    refine ⟨h1, ?_, ?_⟩
    · change |a + t * 2 ^ 62| ≤ 2 ^ 62
      rw [abs_le]
      omega
    · simp only [List.nil_append, limbsInt]; ring
  | [c], a, t, h, ht => by
    have h0 : 0 ≤ c ∧ c < 2 ^ 62 := h.1
    obtain ⟨i1, i2, i3⟩ := LowL.merge (l := []) h.2 ht
    exact ⟨i1, ⟨h0, i2⟩, by simp only [List.cons_append, List.nil_append, limbsInt]; ring⟩
  | c :: d :: l, a, t, h, ht => by
    have h0 : 0 ≤ c ∧ c < 2 ^ 62 := h.1
    obtain ⟨i1, i2, i3⟩ := LowL.merge (l := d :: l) h.2 ht
    refine ⟨i1, ⟨h0, i2⟩, ?_⟩
    have e : ∀ s : List ℤ, limbsInt (c :: d :: l ++ s) = c + 2 ^ 62 * limbsInt (d :: l ++ s) := fun _ => rfl
    rw [e, e, i3]

theorem fgVarRowLoop_spec {u v : ℤ} (huv : |u| + |v| ≤ 2 ^ 62) : ∀ {fs gs : List ℤ} {c : ℤ},
    fs.length = gs.length → SmallL fs → SmallL gs → |c| ≤ 2 ^ 70 →
    |c + u * limbsInt fs + v * limbsInt gs| ≤ 2 ^ 62 * (2 ^ 62) ^ fs.length →
    ∃ r, fgVarRowLoop u v fs gs c = some r ∧ r.length = fs.length + 1 ∧ LowL r ∧
      limbsInt r = c + u * limbsInt fs + v * limbsInt gs
  | [], [], c, _, _, _, hc, hb => by
    have hb' : |c| ≤ 2 ^ 62 := by simpa [limbsInt] using hb
    have e : i128ToI64 c = c := by
      unfold i128ToI64
      rw [abs_le] at hb'
      exact toI64_eq (by omega) (by omega)
    refine ⟨[i128ToI64 c], by simp [fgVarRowLoop], rfl, ?_, ?_⟩
    · rw [e]; exact hb'
    · rw [e]; simp [limbsInt]
  | f :: fs, g :: gs, c, hl, hf, hg, hc, hb => by
    have hf0 := hf f (by simp)
    have hg0 := hg g (by simp)
    have hfs : SmallL fs := fun a ha => hf a (by simp [ha])
    have hgs : SmallL gs := fun a ha => hg a (by simp [ha])
    have e1 := accum2_some (c := c) huv hf0 hg0 (by omega)
    have b1 := (dot_le huv hf0 hg0).2.2
    obtain ⟨c1, hc1⟩ : ∃ c1, c1 = c + (u * f + v * g) := ⟨_, rfl⟩
    rw [← hc1] at e1
    have hcb : |c1| ≤ 2 ^ 127 := by rw [hc1]; rw [abs_le] at *; omega
    have hs := shift_bound hcb
    have hX : c + u * limbsInt (f :: fs) + v * limbsInt (g :: gs) =
        c1 + 2 ^ 62 * (u * limbsInt fs + v * limbsInt gs) := by
      rw [hc1]; simp only [limbsInt]; ring
    rw [hX] at hb ⊢
    have hb2 : |c1 / 2 ^ 62 + u * limbsInt fs + v * limbsInt gs| ≤ 2 ^ 62 * (2 ^ 62) ^ fs.length := by
      rw [List.length_cons, pow_succ ((2 : ℤ) ^ 62)] at hb
      have hp : (0 : ℤ) < (2 ^ 62) ^ fs.length := by positivity
      generalize ((2 : ℤ) ^ 62) ^ fs.length = B at *
      rw [add_assoc]
      generalize u * limbsInt fs + v * limbsInt gs = Y at *
      rw [abs_le] at *
      omega
    obtain ⟨r, er, lr, hr, vr⟩ := fgVarRowLoop_spec huv (c := c1 / 2 ^ 62) (by simpa using hl) hfs hgs
      (by unfold i128Rshift62 at hs; omega) hb2
    refine ⟨((i128ToU64 c1 &&& m62 : ℕ) : ℤ) :: r, ?_, by simp [lr], ?_, ?_⟩
    · unfold fgVarRowLoop
      rw [e1, Option.bind_some]
      unfold i128Rshift62
      rw [er, Option.bind_some]
    · cases r with
      | nil => simp at lr
      | cons a r =>
        refine ⟨?_, hr⟩
        rw [toU64_land_m62]; omega
    · simp only [limbsInt]
      rw [toU64_land_m62, vr]
      have : c1 = c1 % 2 ^ 62 + 2 ^ 62 * (c1 / 2 ^ 62) := by omega
      linear_combination -this

theorem fgVarRow_spec {u v x : ℤ} (huv : |u| + |v| ≤ 2 ^ 62) {A B A' B' : List ℤ}
    (hA : A ≠ []) (hl : A.length = A'.length) (hs : SmallL A) (hs' : SmallL A')
    (h : 2 ^ 62 * x = u * limbsInt A + v * limbsInt A') (hx : |x| ≤ (2 ^ 62) ^ A.length) :
    ∃ r, fgVarRow u v A.length (A ++ B) (A' ++ B') = some r ∧ r.length = A.length ∧ LowL r ∧
      limbsInt r = x := by
  obtain ⟨a, fs, rfl⟩ := List.exists_cons_of_ne_nil hA
  obtain ⟨b, gs, rfl⟩ := List.exists_cons_of_ne_nil (l := A') (by rintro rfl; simp at hl)
  have hf0 := hs a (by simp)
  have hg0 := hs' b (by simp)
  have hfs : SmallL fs := fun y hy => hs y (by simp [hy])
  have hgs : SmallL gs := fun y hy => hs' y (by simp [hy])
  have e1 := mul2_some huv hf0 hg0
  have b1 := (dot_le huv hf0 hg0).2.2
  obtain ⟨c1, hc1⟩ : ∃ c1, c1 = u * a + v * b := ⟨_, rfl⟩
  rw [← hc1] at e1 b1
  have hsb := shift_bound (c := c1) (by omega)
  have hX : 2 ^ 62 * x = c1 + 2 ^ 62 * (u * limbsInt fs + v * limbsInt gs) := by
    rw [h, hc1]; simp only [limbsInt]; ring
  have hX' : c1 / 2 ^ 62 + u * limbsInt fs + v * limbsInt gs = x := by
    rw [add_assoc]
    generalize u * limbsInt fs + v * limbsInt gs = Y at *
    omega
  obtain ⟨r, er, lr, hr, vr⟩ := fgVarRowLoop_spec huv (c := c1 / 2 ^ 62) (fs := fs) (gs := gs)
    (by simpa using hl) hfs hgs (by unfold i128Rshift62 at hsb; omega) (by
      rw [hX']
      rw [List.length_cons, pow_succ ((2 : ℤ) ^ 62), mul_comm] at hx
      exact hx)
  refine ⟨r, ?_, by simp [lr], hr, by rw [vr, hX']⟩
  unfold fgVarRow
  have t1 : ((a :: fs ++ B).take (a :: fs).length).drop 1 = fs := by
    rw [List.take_left]; rfl
  have t2 : ((b :: gs ++ B').take (a :: fs).length).drop 1 = gs := by
    rw [hl, List.take_left]; rfl
  rw [t1, t2, ← Option.bind_assoc]
  have g1 : (a :: fs ++ B).getD 0 0 = a := rfl
  have g2 : (b :: gs ++ B').getD 0 0 = b := rfl
  rw [g1, g2, e1, Option.bind_some]
  exact er

theorem orFold_zero {l : List ℤ} (hl : ∀ a ∈ l, -2 ^ 63 ≤ a ∧ a < 2 ^ 63) : ∀ {c : ℤ}, -2 ^ 63 ≤ c →
    c < 2 ^ 63 → (l.foldl or64 c = 0 ↔ c = 0 ∧ ∀ a ∈ l, a = 0) := by
  induction l with
  | nil => intro c _ _; simp
  | cons a l ih =>
    intro c h1 h2
    have ha := hl a (by simp)
    obtain ⟨r1, r2⟩ := or64_range c a
    rw [List.foldl_cons, ih (fun b hb => hl b (by simp [hb])) r1 r2, or64_eq_zero h1 h2 ha.1 ha.2]
    simp only [List.mem_cons, forall_eq_or_imp]
    exact and_assoc

/-- The test for `g = 0`. -/
theorem gzero_iff {A B : List ℤ} (hA : LowL A) :
    ((A ++ B).getD 0 0 = 0 ∧ orLimbs A.length (A ++ B) = 0) ↔ limbsInt A = 0 := by
  cases A with
  | nil => exact absurd hA (by simp [LowL])
  | cons a l =>
    have hs := hA.small
    have hr : ∀ b ∈ l, -2 ^ 63 ≤ b ∧ b < 2 ^ 63 := by
      intro b hb
      have := hs b (by simp [hb])
      rw [abs_le] at this
      omega
    unfold orLimbs
    rw [List.take_left, hA.zero]
    have e : (a :: l).drop 1 = l := rfl
    rw [e, orFold_zero hr (by norm_num) (by norm_num)]
    simp

theorem shrinkCond_iff {len : ℕ} {fn gn : ℤ} (hlen : len ≤ 5) (hf : |fn| ≤ 2 ^ 62) (hg : |gn| ≤ 2 ^ 62) :
    shrinkCond len fn gn = 0 ↔ 2 ≤ len ∧ (fn = 0 ∨ fn = -1) ∧ (gn = 0 ∨ gn = -1) := by
  have key : ∀ {x : ℤ}, |x| ≤ 2 ^ 62 → (xor64 x (x / 2 ^ 63) = 0 ↔ x = 0 ∨ x = -1) := by
    intro x hx
    rw [abs_le] at hx
    by_cases h : x < 0
    · rw [sign_neg (by omega) h, xor64_neg_one (by omega) (by omega)]; omega
    · rw [sign_nonneg (by omega) (by omega), xor64_zero (by omega) (by omega)]; omega
  unfold shrinkCond
  obtain ⟨r1, r2⟩ := or64_range (((len : ℤ) - 2) / 2 ^ 63) (xor64 fn (fn / 2 ^ 63))
  obtain ⟨r3, r4⟩ := xor64_range gn (gn / 2 ^ 63)
  obtain ⟨r5, r6⟩ := xor64_range fn (fn / 2 ^ 63)
  rw [or64_eq_zero r1 r2 r3 r4, or64_eq_zero (by omega) (by omega) r5 r6, key hf, key hg]
  have : ((len : ℤ) - 2) / 2 ^ 63 = 0 ↔ 2 ≤ len := by omega
  rw [this]
  exact and_assoc

theorem merge_value {a t : ℤ} (ha : 0 ≤ a ∧ a < 2 ^ 62) (ht : t = 0 ∨ t = -1) :
    or64 a (toI64 (u64 (toU64 t <<< 62) : ℕ)) = a + t * 2 ^ 62 := by
  rcases ht with rfl | rfl
  · have e : toI64 (u64 (toU64 0 <<< 62) : ℕ) = 0 := by decide
    rw [e]
    unfold or64
    rw [toU64_zero, Nat.or_zero, toI64_toU64 (by omega) (by omega)]
    ring
  · have e : toU64 (toI64 (u64 (toU64 (-1) <<< 62) : ℕ)) = 3 * 2 ^ 62 := by decide
    unfold or64
    rw [e]
    have h1 := toU64_cast a
    have h2 : toU64 a < 2 ^ 62 := by omega
    have h3 : toU64 a ||| 3 * 2 ^ 62 = toU64 a + 3 * 2 ^ 62 := by
      rw [Nat.or_comm, mul_comm, ← Nat.two_pow_add_eq_or_of_lt h2]
      ring
    rw [h3]
    unfold toI64
    push_cast
    omega

theorem limbsInt_bound : ∀ {A : List ℤ} (hA : A ≠ []), LowL A → A.getLast hA < 2 ^ 62 →
    -(2 ^ 62) ^ A.length ≤ limbsInt A ∧ limbsInt A ≤ (2 ^ 62) ^ A.length - 1
  | [a], _, h, h2 => by
    have h' : |a| ≤ 2 ^ 62 := h
    have h2' : a < 2 ^ 62 := h2
    rw [abs_le] at h'
    simp only [limbsInt, List.length_singleton, pow_one]
    omega
  | a :: b :: l, _, h, h2 => by
    have ih := limbsInt_bound (A := b :: l) (by simp) h.2 (by rwa [List.getLast_cons (by simp)] at h2)
    obtain ⟨h1, -⟩ := h
    have e : limbsInt (a :: b :: l) = a + 2 ^ 62 * limbsInt (b :: l) := rfl
    rw [e, show (a :: b :: l).length = (b :: l).length + 1 from rfl, pow_succ ((2 : ℤ) ^ 62)]
    generalize ((2 : ℤ) ^ 62) ^ (b :: l).length = P at *
    omega

/-- Dropping the top limb. -/
theorem mergeTop_spec {A B : List ℤ} (hA : LowL A) (h2 : 2 ≤ A.length) {t : ℤ}
    (ht : t = (A ++ B).getD (A.length - 1) 0) (ht' : t = 0 ∨ t = -1) :
    ∃ A' B', mergeTop A.length (A ++ B) t = A' ++ B' ∧ A'.length = A.length - 1 ∧ LowL A' ∧
      limbsInt A' = limbsInt A ∧ |limbsInt A'| ≤ (2 ^ 62) ^ A'.length := by
  obtain ⟨l, a, s, rfl⟩ : ∃ l a s, A = l ++ [a, s] := by
    have hne : A ≠ [] := by rintro rfl; simp at h2
    have hne2 : A.dropLast ≠ [] := by
      intro h
      have := congrArg List.length h
      simp at this
      omega
    refine ⟨A.dropLast.dropLast, A.dropLast.getLast hne2, A.getLast hne, ?_⟩
    have e1 := List.dropLast_append_getLast hne2
    have e2 := List.dropLast_append_getLast hne
    conv_lhs => rw [← e2, ← e1]
    simp
  have hlen : (l ++ [a, s]).length = l.length + 2 := by simp
  have hs : t = s := by
    rw [ht, hlen]
    simp [List.getD_eq_getElem?_getD]
  subst hs
  obtain ⟨h1, h3, h4⟩ := hA.merge ht'
  have hb := limbsInt_bound (A := l ++ [a + t * 2 ^ 62]) (by simp) h3 (by
    rw [List.getLast_append_singleton]; omega)
  refine ⟨l ++ [a + t * 2 ^ 62], t :: B, ?_, by simp, h3, h4, by rw [abs_le]; omega⟩
  unfold mergeTop
  rw [hlen]
  have e1 : (l ++ [a, t] ++ B).getD (l.length + 2 - 2) 0 = a := by
    simp [List.getD_eq_getElem?_getD]
  rw [e1, merge_value h1 ht']
  simp

theorem limbsInt_low {A : List ℤ} (hA : A ≠ []) (B : List ℤ) :
    Cong 62 (toU64 ((A ++ B).getD 0 0)) (limbsInt A) := by
  obtain ⟨a, l, rfl⟩ := List.exists_cons_of_ne_nil hA
  refine Int.ModEq.trans (cong_toU64 a (by norm_num)) ?_
  rw [Int.modEq_iff_dvd]
  exact ⟨limbsInt l, by simp only [limbsInt]; ring⟩

theorem getD_last {A B : List ℤ} (hA : A ≠ []) : (A ++ B).getD (A.length - 1) 0 = A.getLast hA := by
  have h : 0 < A.length := List.length_pos_of_ne_nil hA
  rw [List.getD_eq_getElem?_getD, List.getElem?_append_left (by omega), ← List.getLast?_eq_getElem?,
    List.getLast?_eq_some_getLast hA]
  rfl

/-- The state of the variable-time loop: limb lists of which only the first `len` count. -/
structure VarState (M : Modinfo) (m x : ℤ) (S : DS) (len : ℕ) (d e : S62) (f g A A' B B' : List ℤ) :
    Prop where
  odd : S.f % 2 = 1
  len5 : len ≤ 5
  hf : f = A ++ B
  hg : g = A' ++ B'
  lA : A.length = len
  lA' : A'.length = len
  ne : A ≠ []
  vf : limbsInt A = S.f
  vg : limbsInt A' = S.g
  bf : |S.f| ≤ m
  bg : |S.g| ≤ m
  cf : |S.f| ≤ (2 ^ 62) ^ len
  cg : |S.g| ≤ (2 ^ 62) ^ len
  sf : SmallL A
  sg : SmallL A'
  ld : d.Low
  le : e.Low
  d1 : -2 * m < d.int
  d2 : d.int < m
  e1 : -2 * m < e.int
  e2 : e.int < m
  td : d.int * x ≡ S.f [ZMOD m]
  te : e.int * x ≡ S.g [ZMOD m]

theorem modinv64VarLoop_spec {M : Modinfo} {m : ℤ} (hM : M.Ok m) {x : ℤ} (k : ℕ) :
    ∀ {N : ℕ} {S : DS} {len : ℕ} {d e : S62} {f g A A' B B' : List ℤ}, 1 ≤ N → N ≤ k → N ≤ 100 →
    |S.z| + 62 * N ≤ 2 ^ 18 → (run 1 (62 * N) S).g = 0 →
    VarState M m x S len d e f g A A' B B' →
    ∃ d' top j, modinv64VarLoop M k len S.z d e f g = some (d', top) ∧ d'.Low ∧
      -2 * m < d'.int ∧ d'.int < m ∧ (run 1 j S).g = 0 ∧ d'.int * x ≡ (run 1 j S).f [ZMOD m] ∧
      |top| ≤ 2 ^ 62 ∧ (top < 0 ↔ (run 1 j S).f < 0) ∧ (d.int = 0 → S.g = 0 → d'.int = 0) := by
  induction k with
  | zero => intro N S len d e f g A A' B B' h1 h2; omega
  | succ k ih =>
    intro N S len d e f g A A' B B' hN hk hN2 hz hend st
    obtain ⟨hodd, hlen5, rfl, rfl, rfl, lA', ne, vf, vg, bf, bg, cf, cg, sf, sg, ld, le, d1, d2, e1, e2,
      td, te⟩ := st
    have ne' : A' ≠ [] := by
      intro h; rw [h] at lA'
      exact ne (List.eq_nil_of_length_eq_zero (by simpa using lA'.symm))
    have ef := limbsInt_low ne B
    have eg := limbsInt_low ne' B'
    rw [vf] at ef
    rw [vg] at eg
    have hds := divsteps62Var_spec (z := S.z) hodd (by omega) (toU64_lt _) (toU64_lt _) ef eg
    have hinv := mrun_inv 1 (z := S.z) (G := S.g) hodd 62
    have hrz := run_z (κ := 1) (Or.inl rfl) 62 (s := S)
    have hzero : S.g = 0 → (mrun 1 62 ⟨S.z, S.f, S.g⟩).v = 0 ∧ (mrun 1 62 ⟨S.z, S.f, S.g⟩).s.g = 0 := by
      intro h0
      rw [h0, mrun_zero]
      exact ⟨rfl, rfl⟩
    have hs : (mrun 1 62 ⟨S.z, S.f, S.g⟩).s = run 1 62 S := mrun_s 1 62 S
    generalize mrun 1 62 ⟨S.z, S.f, S.g⟩ = mm at *
    obtain ⟨i1, i2, i3, i4, i5⟩ := hinv
    have bf' := row_bound i1 i3 bf bg
    have bg' := row_bound i2 i4 bf bg
    have cf' := row_bound i1 i3 cf cg
    have cg' := row_bound i2 i4 cf cg
    have x1 : 2 ^ 62 * mm.s.f = mm.u * limbsInt A + mm.v * limbsInt A' := by rw [vf, vg]; exact i1
    have x2 : 2 ^ 62 * mm.s.g = mm.q * limbsInt A + mm.r * limbsInt A' := by rw [vf, vg]; exact i2
    obtain ⟨d', e', ede, ld', le', d1', d2', e1', e2', cd', ce', z'⟩ :=
      updateDe62_spec hM (t := ⟨mm.u, mm.v, mm.q, mm.r⟩) i3 i4 ld le d1 d2 e1 e2
    obtain ⟨F, eF, lF, hF, vF⟩ := fgVarRow_spec (B := B) (B' := B') i3 ne lA'.symm sf sg x1 cf'
    obtain ⟨Gl, eG, lG, hG, vG⟩ := fgVarRow_spec (B := B) (B' := B') i4 ne lA'.symm sf sg x2 cg'
    have td' := de_track hM.odd td te cd' i1
    have te' := de_track hM.odd td te ce' i2
    have hFne : F ≠ [] := by rintro rfl; exact ne (List.eq_nil_of_length_eq_zero lF.symm)
    have hGne : Gl ≠ [] := by rintro rfl; exact ne (List.eq_nil_of_length_eq_zero lG.symm)
    have hupd : updateFg62Var A.length (A ++ B) (A' ++ B') ⟨mm.u, mm.v, mm.q, mm.r⟩ =
        some (F ++ B, Gl ++ B') := by
      unfold updateFg62Var
      dsimp only
      rw [eF, Option.bind_some, eG, Option.bind_some, List.drop_left, ← lA', List.drop_left]
    unfold modinv64VarLoop
    rw [hds, Option.bind_some]
    dsimp only
    rw [ede, Option.bind_some]
    dsimp only
    rw [hupd, Option.bind_some]
    dsimp only
    have hgz := gzero_iff (B := B') hG
    rw [lG] at hgz
    have hcd : d.int = 0 → S.g = 0 → d'.int = 0 ∧ mm.s.g = 0 := by
      intro h0 hg0
      obtain ⟨v0, g0⟩ := hzero hg0
      exact ⟨z' h0 v0, g0⟩
    have hlastF : (F ++ B).getD (A.length - 1) 0 = F.getLast hFne := by rw [← lF]; exact getD_last hFne
    have hlastG : (Gl ++ B').getD (A.length - 1) 0 = Gl.getLast hGne := by rw [← lG]; exact getD_last hGne
    have tF : |F.getLast hFne| ≤ 2 ^ 62 := hF.small _ (List.getLast_mem hFne)
    have tG : |Gl.getLast hGne| ≤ 2 ^ 62 := hG.small _ (List.getLast_mem hGne)
    by_cases hstop : mm.s.g = 0
    · rw [if_pos (hgz.mpr (by rw [vG]; exact hstop))]
      refine ⟨d', _, 62, rfl, ld', d1', d2', ?_, ?_, ?_, ?_, ?_⟩
      · rw [← hs]; exact hstop
      · rw [← hs]; exact td'
      · rw [hlastF]; exact tF
      · rw [hlastF, hF.sign, vF, hs]
      · exact fun h0 hg0 => (hcd h0 hg0).1
    · rw [if_neg (fun h => hstop (by rw [← vG]; exact hgz.mp h))]
      have hN1 : N ≠ 1 := by
        rintro rfl
        apply hstop
        rw [hs]; exact hend
      have hrec : ∀ {len' : ℕ} {f' g' C C' D D' : List ℤ},
          VarState M m x mm.s len' d' e' f' g' C C' D D' →
          ∃ d'' top j, modinv64VarLoop M k len' mm.s.z d' e' f' g' = some (d'', top) ∧ d''.Low ∧
            -2 * m < d''.int ∧ d''.int < m ∧ (run 1 j S).g = 0 ∧
            d''.int * x ≡ (run 1 j S).f [ZMOD m] ∧ |top| ≤ 2 ^ 62 ∧ (top < 0 ↔ (run 1 j S).f < 0) ∧
            (d.int = 0 → S.g = 0 → d''.int = 0) := by
        intro len' f' g' C C' D D' st'
        obtain ⟨d'', top, j, q1, q2, q3, q4, q5, q6, q7, q8, q9⟩ := ih (N := N - 1) (by omega) (by omega)
          (by omega) (by rw [hs]; omega)
          (by rw [hs, ← run_add, show 62 + 62 * (N - 1) = 62 * N by omega]; exact hend) st'
        refine ⟨d'', top, 62 + j, q1, q2, q3, q4, ?_, ?_, q7, ?_, ?_⟩
        · rw [run_add, ← hs]; exact q5
        · rw [run_add, ← hs]; exact q6
        · rw [run_add, ← hs]; exact q8
        · intro h0 hg0
          obtain ⟨a, b⟩ := hcd h0 hg0
          exact q9 a b
      rw [hlastF, hlastG]
      have hsc := shrinkCond_iff hlen5 tF tG
      by_cases hsh : shrinkCond A.length (F.getLast hFne) (Gl.getLast hGne) = 0
      · rw [if_pos hsh]
        obtain ⟨s1, s2, s3⟩ := hsc.mp hsh
        obtain ⟨C, D, eC, lC, hC, vC, bC⟩ := mergeTop_spec (B := B) hF (by omega) (t := F.getLast hFne)
          (getD_last hFne).symm s2
        obtain ⟨C', D', eC', lC', hC', vC', bC'⟩ := mergeTop_spec (B := B') hG (by omega) (t := Gl.getLast hGne)
          (getD_last hGne).symm s3
        rw [lF] at eC lC
        rw [lG] at eC' lC'
        rw [eC, eC']
        rw [vC, vF, lC] at bC
        rw [vC', vG, lC'] at bC'
        exact hrec ⟨i5, by omega, rfl, rfl, lC, lC', by rintro rfl; exact hC, by rw [vC, vF],
          by rw [vC', vG], bf', bg', bC, bC', hC.small, hC'.small, ld', le', d1', d2', e1', e2', td', te'⟩
      · rw [if_neg hsh]
        exact hrec ⟨i5, hlen5, rfl, rfl, lF, lG, hFne, vF, vG, bf', bg', cf', cg', hF.small, hG.small,
          ld', le', d1', d2', e1', e2', td', te'⟩

theorem limbsInt_toList (a : S62) : limbsInt a.toList = a.int := by
  unfold S62.toList S62.int
  simp only [limbsInt]
  ring

theorem S62.Small.toList {a : S62} (h : a.Small) : SmallL a.toList := by
  intro b hb
  simp only [S62.toList, List.mem_cons, List.not_mem_nil, or_false] at hb
  rcases hb with rfl | rfl | rfl | rfl | rfl
  · exact h.v0
  · exact h.v1
  · exact h.v2
  · exact h.v3
  · exact h.v4

/-- The variable-time inversion ends after at most 12 iterations. -/
theorem modinv64Var_spec {M : Modinfo} {m : ℤ} (hM : M.Ok m) {x : S62} (hx : x.Canon)
    (h1 : x.int < m) {fuel : ℕ} (hfuel : 12 ≤ fuel) :
    ∃ r, modinv64Var fuel x M = some r ∧ r.Canon ∧ 0 ≤ r.int ∧ r.int < m ∧
      (x.int = 0 → r.int = 0) ∧ (IsCoprime x.int m → r.int * x.int ≡ 1 [ZMOD m]) := by
  have hm1 := hM.ge
  have hm2 := hM.le
  have h0 : 0 ≤ x.int := by
    obtain ⟨a, b, c, d, e⟩ := hx
    unfold S62.int
    omega
  have hr := reach1 hM.odd h0 h1.le hm2
  have habs : |x.int| ≤ m := by rw [abs_of_nonneg h0]; exact h1.le
  have hmabs : |m| ≤ m := by rw [abs_of_nonneg (by omega)]
  obtain ⟨d, top, j, e1, e2, e3, e4, e5, e6, e7, e8, e9⟩ := modinv64VarLoop_spec hM (x := x.int) fuel
    (N := 12) (S := ⟨-1, m, x.int⟩) (len := 5) (d := ⟨0, 0, 0, 0, 0⟩) (e := ⟨1, 0, 0, 0, 0⟩)
    (f := M.modulus.toList) (g := x.toList) (A := M.modulus.toList) (A' := x.toList) (B := []) (B' := [])
    (by norm_num) hfuel (by norm_num) (by norm_num) hr
    ⟨hM.odd, le_refl _, by simp, by simp, rfl, rfl, by simp [S62.toList],
      by rw [limbsInt_toList, hM.val], limbsInt_toList x, hmabs, habs,
      hmabs.trans (hm2.trans (by norm_num)), habs.trans (hm2.trans (by norm_num)), hM.small.toList,
      hx.small.toList,
      ⟨by norm_num, by norm_num, by norm_num, by norm_num⟩,
      ⟨by norm_num, by norm_num, by norm_num, by norm_num⟩,
      by simp [S62.int]; omega, by simp [S62.int]; omega, by simp [S62.int]; omega,
      by simp [S62.int]; omega,
      by
        rw [Int.modEq_iff_dvd]
        refine ⟨1, ?_⟩
        simp [S62.int],
      by simp [S62.int]⟩
  rw [abs_le] at e7
  obtain ⟨r, q1, q2, q3, q4, q5, q6⟩ := normalize62_spec hM e2 e3 e4 (sign := top)
    (by omega) (by omega)
  refine ⟨r, ?_, q2, q3, q4, ?_, ?_⟩
  · unfold modinv64Var
    rw [e1, Option.bind_some]
    exact q1
  · intro hx0
    exact q6 (e9 (by simp [S62.int]) hx0)
  · intro hcop
    have hu := unit_of_run (j := j) hM.odd hcop e5
    have key : r.int * x.int ≡ (if top < 0 then -1 else 1) * (run 1 j ⟨-1, m, x.int⟩).f [ZMOD m] := by
      calc r.int * x.int ≡ (if top < 0 then -1 else 1) * d.int * x.int [ZMOD m] := q5.mul_right _
        _ = (if top < 0 then -1 else 1) * (d.int * x.int) := by ring
        _ ≡ _ [ZMOD m] := e6.mul_left _
    refine key.trans ?_
    rcases hu with hu | hu
    · rw [hu] at e8 ⊢
      rw [if_neg (by rw [e8]; norm_num)]
      rfl
    · rw [hu] at e8 ⊢
      rw [if_pos (by rw [e8]; norm_num)]
      rfl

end Secp.Model
