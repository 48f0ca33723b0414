import Verif.Proof.Modinv32Norm
import Verif.Proof.Modinv64Const

/-!
The constant-time inversion, on 30-bit limbs.
-/

namespace Secp.Model.M32
open Secp.Divstep

/-- The matrix applied to `d, e` keeps `d x ≡ f` and `e x ≡ g`. -/
theorem de_track {m x u v d e f g d' f' : ℤ} (hm : m % 2 = 1) (hd : d * x ≡ f [ZMOD m])
    (he : e * x ≡ g [ZMOD m]) (hd' : 2 ^ 30 * d' ≡ u * d + v * e [ZMOD m])
    (hf' : 2 ^ 30 * f' = u * f + v * g) : d' * x ≡ f' [ZMOD m] := by
  refine cancel_two_pow hm 30 ?_
  rw [hf']
  calc 2 ^ 30 * (d' * x) = 2 ^ 30 * d' * x := by ring
    _ ≡ (u * d + v * e) * x [ZMOD m] := hd'.mul_right x
    _ = u * (d * x) + v * (e * x) := by ring
    _ ≡ u * f + v * g [ZMOD m] := (hd.mul_left u).add (he.mul_left v)

theorem cong_low {l : List ℤ} (h9 : l.length = 9) : Cong 30 (toU32 (l.getD 0 0)) (int30 l) := by
  obtain ⟨a, l, rfl⟩ := List.exists_cons_of_ne_nil (l := l) (by rintro rfl; simp at h9)
  refine Int.ModEq.trans (cong_toU32 a (by norm_num)) ?_
  rw [Int.modEq_iff_dvd]
  refine ⟨int30 l, ?_⟩
  simp only [int30]; ring

theorem modinv32Loop_spec {M : Modinfo} {m : ℤ} (hM : M.Ok m) {x : ℤ} (k : ℕ) (hk : k ≤ 20) :
    ∀ {S : DS} {d e f g : List ℤ}, |S.z| + 30 * k ≤ 2 ^ 20 → S.f % 2 = 1 → int30 f = S.f →
    int30 g = S.g → |S.f| ≤ m → |S.g| ≤ m → (SmallL f ∧ f.length = 9) → (SmallL g ∧ g.length = 9) →
    (LowL d ∧ d.length = 9) → (LowL e ∧ e.length = 9) → -2 * m < int30 d → int30 d < m →
    -2 * m < int30 e → int30 e < m → int30 d * x ≡ int30 f [ZMOD m] → int30 e * x ≡ int30 g [ZMOD m] →
    ∃ d' f', modinv32Loop M k S.z d e f g = some (d', f') ∧ (LowL d' ∧ d'.length = 9) ∧
      -2 * m < int30 d' ∧ int30 d' < m ∧
      int30 f' = (run 2 (30 * k) S).f ∧ int30 d' * x ≡ int30 f' [ZMOD m] ∧ |int30 f'| ≤ m ∧
      (0 < k → LowL f' ∧ f'.length = 9) ∧ (int30 d = 0 → int30 g = 0 → int30 d' = 0) := by
  induction k with
  | zero =>
    intro S d e f g hz hodd hf hg bf bg sf sg ld le d1 d2 e1 e2 td te
    exact ⟨d, f, rfl, ld, d1, d2, hf, td, hf ▸ bf, fun h => absurd h (by omega), fun h _ => h⟩
  | succ k ih =>
    intro S d e f g hz hodd hf hg bf bg sf sg ld le d1 d2 e1 e2 td te
    have hm1 := hM.ge
    have hm2 := hM.le
    have ef : Cong 30 (toU32 (f.getD 0 0)) S.f := by rw [← hf]; exact cong_low sf.2
    have eg : Cong 30 (toU32 (g.getD 0 0)) S.g := by rw [← hg]; exact cong_low sg.2
    have hds := divsteps30_spec (z := S.z) hodd (by push_cast at hz; omega) (toU32_lt _) (toU32_lt _)
      ef eg
    have hinv := mrun_inv 2 (z := S.z) (G := S.g) hodd 30
    have hrz := run_z (κ := 2) (Or.inr rfl) 30 (s := S)
    have hzero : S.g = 0 → (mrun 2 30 ⟨S.z, S.f, S.g⟩).v = 0 ∧ (mrun 2 30 ⟨S.z, S.f, S.g⟩).s.g = 0 := by
      intro h0
      rw [h0, mrun_zero]
      exact ⟨rfl, rfl⟩
    have hs : (mrun 2 30 ⟨S.z, S.f, S.g⟩).s = run 2 30 S := mrun_s 2 30 S
    generalize mrun 2 30 ⟨S.z, S.f, S.g⟩ = mm at *
    obtain ⟨i1, i2, i3, i4, i5⟩ := hinv
    have bf' := row_bound i1 i3 bf bg
    have bg' := row_bound i2 i4 bf bg
    have x1 : 2 ^ 30 * mm.s.f = mm.u * int30 f + mm.v * int30 g := by rw [hf, hg]; exact i1
    have x2 : 2 ^ 30 * mm.s.g = mm.q * int30 f + mm.r * int30 g := by rw [hf, hg]; exact i2
    have hm3 : m ≤ 2 ^ 257 := by clear * - hm2; omega
    obtain ⟨d', e', ede, ld', le', d1', d2', e1', e2', cd', ce', z'⟩ :=
      updateDe30_spec hM (t := ⟨mm.u, mm.v, mm.q, mm.r⟩) i3 i4 ld.1 le.1 ld.2 le.2 d1 d2 e1 e2
    obtain ⟨f', g', efg, hf', hg', lf', lg', nf', ng'⟩ :=
      updateFg30_spec (t := ⟨mm.u, mm.v, mm.q, mm.r⟩) i3 i4 sf.2 sg.2 sf.1 sg.1 x1
        (bf'.trans hm3) x2 (bg'.trans hm3)
    have td' := de_track hM.odd td te cd' x1
    have te' := de_track hM.odd td te ce' x2
    rw [← hf'] at td'
    rw [← hg'] at te'
    obtain ⟨d'', f'', q1, q2, q3, q4, q5, q6, q7, q8, q9⟩ := ih (by omega) (S := mm.s) (d := d') (e := e')
      (f := f') (g := g') (by rw [hs]; push_cast at hz hrz; omega) i5 hf' hg' bf' bg'
      ⟨lf'.small, nf'⟩ ⟨lg'.small, ng'⟩ ld' le' d1' d2' e1' e2' td' te'
    refine ⟨d'', f'', ?_, q2, q3, q4, ?_, q6, q7, ?_, ?_⟩
    · unfold modinv32Loop
      rw [hds]
      dsimp only
      rw [ede, Option.bind_some]
      dsimp only
      rw [efg, Option.bind_some]
      exact q1
    · rw [q5, hs, ← run_add, show 30 + 30 * k = 30 * (k + 1) by ring]
    · intro _
      by_cases hk0 : 0 < k
      · exact q8 hk0
      · have : k = 0 := by omega
        subst this
        have : some (d', f') = some (d'', f'') := q1
        simp only [Option.some.injEq, Prod.mk.injEq] at this
        rw [← this.2]; exact ⟨lf', nf'⟩
    · intro h0 hg0
      have := hzero (by rw [← hg]; exact hg0)
      refine q9 (z' h0 this.1) ?_
      rw [hg', this.2]

theorem Modinfo.Ok.small {M : Modinfo} {m : ℤ} (h : M.Ok m) : SmallL M.modulus :=
  fun a ha => (h.limb a ha).le

theorem Canon.small {a : List ℤ} (h : Canon a) : SmallL a := by
  intro x hx
  have := h.limb x hx
  rw [abs_le]
  omega

theorem lowL_of_limb : ∀ {l : List ℤ}, l ≠ [] → (∀ x ∈ l, 0 ≤ x ∧ x < 2 ^ 30) → LowL l
  | [a], _, h => by
    have := h a (by simp)
    show |a| ≤ 2 ^ 30
    rw [abs_le]; omega
  | a :: b :: l, _, h =>
    ⟨h a (by simp), lowL_of_limb (by simp) fun x hx => h x (by simp [hx])⟩

theorem Canon.low {a : List ℤ} (h : Canon a) : LowL a :=
  lowL_of_limb (by rintro rfl; have := h.len; simp at this) h.limb

theorem int30_nonneg : ∀ {l : List ℤ}, (∀ x ∈ l, 0 ≤ x ∧ x < 2 ^ 30) → 0 ≤ int30 l
  | [], _ => by simp [int30]
  | a :: l, h => by
    have := int30_nonneg (l := l) fun x hx => h x (by simp [hx])
    have := h a (by simp)
    simp only [int30]
    omega

/-- A run that has ended stays where it is. -/
theorem run_extend {κ : ℤ} {S : DS} (j i : ℕ) (h : (run κ j S).g = 0) : (run κ (j + i) S).g = 0 := by
  rw [run_add, ← mrun_s]
  generalize run κ j S = T at *
  obtain ⟨z, f, g⟩ := T
  dsimp only at h
  subst h
  rw [mrun_zero]

/-- The constant-time inversion. -/
theorem modinv32_spec {M : Modinfo} {m : ℤ} (hM : M.Ok m) {x : List ℤ} (hx : Canon x)
    (h1 : int30 x < m) :
    ∃ r, modinv32 x M = some r ∧ Canon r ∧ 0 ≤ int30 r ∧ int30 r < m ∧
      (int30 x = 0 → int30 r = 0) ∧ (IsCoprime (int30 x) m → int30 r * int30 x ≡ 1 [ZMOD m]) := by
  have hm1 := hM.ge
  have hm2 := hM.le
  have h0 : 0 ≤ int30 x := int30_nonneg hx.limb
  have v0 : int30 [0, 0, 0, 0, 0, 0, 0, 0, 0] = 0 := by simp [int30]
  have v1 : int30 [1, 0, 0, 0, 0, 0, 0, 0, 0] = 1 := by simp [int30]
  obtain ⟨d, f, e1, e2, e3, e4, e5, e6, e7, e8, e9⟩ := modinv32Loop_spec hM (x := int30 x) 20
    (le_refl _) (S := ⟨-1, m, int30 x⟩) (d := [0, 0, 0, 0, 0, 0, 0, 0, 0])
    (e := [1, 0, 0, 0, 0, 0, 0, 0, 0]) (f := M.modulus) (g := x)
    (by norm_num) hM.odd hM.val rfl (by dsimp only; rw [abs_of_nonneg] <;> omega)
    (by dsimp only; rw [abs_of_nonneg h0]; exact h1.le) ⟨hM.small, hM.len⟩ ⟨hx.small, hx.len⟩
    ⟨by simp [LowL], rfl⟩ ⟨by simp [LowL], rfl⟩
    (by rw [v0]; omega) (by rw [v0]; omega) (by rw [v1]; omega) (by rw [v1]; omega)
    (by
      rw [hM.val, v0, Int.modEq_iff_dvd]
      exact ⟨1, by ring⟩)
    (by rw [v1, one_mul])
  obtain ⟨lf, nf⟩ := e8 (by norm_num)
  have hne : f ≠ [] := by rintro rfl; simp at nf
  have ht := lf.small _ (List.getLast_mem hne)
  rw [abs_le] at ht
  have hg8 := getD8 nf hne
  obtain ⟨r, q1, q2, q3, q4, q5, q6⟩ := normalize30_spec hM e2.1 e2.2 e3 e4 (sign := f.getD 8 0)
    (by rw [hg8]; omega) (by rw [hg8]; omega)
  refine ⟨r, ?_, q2, q3, q4, ?_, ?_⟩
  · unfold modinv32
    rw [e1, Option.bind_some]
    exact q1
  · intro hx0
    exact q6 (e9 v0 hx0)
  · intro hcop
    have hr := run_extend 590 10 (reach2 hM.odd h0 h1.le hm2)
    have hu := unit_of_run (j := 600) hM.odd hcop hr
    have key : int30 r * int30 x ≡ (if f.getD 8 0 < 0 then -1 else 1) * int30 f [ZMOD m] := by
      calc int30 r * int30 x ≡ (if f.getD 8 0 < 0 then -1 else 1) * int30 d * int30 x [ZMOD m] :=
            q5.mul_right _
        _ = (if f.getD 8 0 < 0 then -1 else 1) * (int30 d * int30 x) := by ring
        _ ≡ _ [ZMOD m] := e6.mul_left _
    refine key.trans ?_
    have hs := lf.sign hne
    rw [← hg8] at hs
    rw [show 30 * 20 = 600 from rfl] at e5
    rcases hu with hu | hu
    · rw [e5, hu] at hs ⊢
      rw [if_neg (by rw [hs]; norm_num)]
      rfl
    · rw [e5, hu] at hs ⊢
      rw [if_pos (by rw [hs]; norm_num)]
      rfl

end Secp.Model.M32
