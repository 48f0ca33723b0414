import Verif.Proof.Modinv32VarSteps

/-!
The updates of `d, e` and `f, g` by a transition matrix, on 30-bit limbs.
-/

namespace Secp.Model.M32

/-- All limbs at most `2^62` in absolute value. -/
def SmallL (l : List ℤ) : Prop := ∀ a ∈ l, |a| ≤ 2 ^ 30

/-- All limbs but the last in `[0, 2^62)`, the last one small. -/
def LowL : List ℤ → Prop
  | [] => False
  | [a] => |a| ≤ 2 ^ 30
  | a :: b :: l => (0 ≤ a ∧ a < 2 ^ 30) ∧ LowL (b :: l)

theorem LowL.small : ∀ {l : List ℤ}, LowL l → SmallL l
  | [a], h => by
    intro b hb
    rw [List.mem_singleton] at hb
    rw [hb]; exact h
  | a :: b :: l, h => by
    intro c hc
    rcases List.mem_cons.mp hc with rfl | hc
    · rw [abs_le]; obtain ⟨h1, -⟩ := h; omega
    · exact LowL.small h.2 c hc

theorem LowL.zero : ∀ {l : List ℤ}, LowL l → (int30 l = 0 ↔ ∀ a ∈ l, a = 0)
  | [a], _ => by simp [int30]
  | a :: b :: l, h => by
    have ih := LowL.zero h.2
    obtain ⟨h1, -⟩ := h
    constructor
    · intro h0
      have e : int30 (a :: b :: l) = a + 2 ^ 30 * int30 (b :: l) := rfl
      rw [e] at h0
      have ha : a = 0 := by omega
      have hr : int30 (b :: l) = 0 := by omega
      intro c hc
      rcases List.mem_cons.mp hc with rfl | hc
      · exact ha
      · exact ih.mp hr c hc
    · intro h0
      have e : int30 (a :: b :: l) = a + 2 ^ 30 * int30 (b :: l) := rfl
      rw [e, h0 a (by simp), ih.mpr (fun c hc => h0 c (by simp only [List.mem_cons] at hc ⊢; tauto))]
      norm_num

theorem LowL.sign : ∀ {l : List ℤ} (h : l ≠ []), LowL l → (l.getLast h < 0 ↔ int30 l < 0)
  | [a], _, _ => by simp [int30]
  | a :: b :: l, _, h => by
    have ih := LowL.sign (l := b :: l) (by simp) h.2
    obtain ⟨h1, -⟩ := h
    rw [List.getLast_cons (by simp), ih]
    have e : int30 (a :: b :: l) = a + 2 ^ 30 * int30 (b :: l) := rfl
    rw [e]
    omega

/-- Merging the top limb into the one below it. -/
theorem LowL.merge : ∀ {l : List ℤ} {a t : ℤ}, LowL (l ++ [a, t]) → (t = 0 ∨ t = -1) →
    (0 ≤ a ∧ a < 2 ^ 30) ∧ LowL (l ++ [a + t * 2 ^ 30]) ∧
      int30 (l ++ [a + t * 2 ^ 30]) = int30 (l ++ [a, t])
  | [], a, t, h, ht => by
    have h1 : 0 ≤ a ∧ a < 2 ^ 30 := h.1
    refine ⟨h1, ?_, ?_⟩
    · change |a + t * 2 ^ 30| ≤ 2 ^ 30
      rw [abs_le]
      omega
    · simp only [List.nil_append, int30]; ring
  | [c], a, t, h, ht => by
    have h0 : 0 ≤ c ∧ c < 2 ^ 30 := h.1
    obtain ⟨i1, i2, i3⟩ := LowL.merge (l := []) h.2 ht
    exact ⟨i1, ⟨h0, i2⟩, by simp only [List.cons_append, List.nil_append, int30]; ring⟩
  | c :: d :: l, a, t, h, ht => by
    have h0 : 0 ≤ c ∧ c < 2 ^ 30 := h.1
    obtain ⟨i1, i2, i3⟩ := LowL.merge (l := d :: l) h.2 ht
    refine ⟨i1, ⟨h0, i2⟩, ?_⟩
    have e : ∀ s : List ℤ, int30 (c :: d :: l ++ s) = c + 2 ^ 30 * int30 (d :: l ++ s) := fun _ => rfl
    rw [e, e, i3]

theorem int30_bound : ∀ {A : List ℤ} (hA : A ≠ []), LowL A → A.getLast hA < 2 ^ 30 →
    -(2 ^ 30) ^ A.length ≤ int30 A ∧ int30 A ≤ (2 ^ 30) ^ A.length - 1
  | [a], _, h, h2 => by
    have h' : |a| ≤ 2 ^ 30 := h
    have h2' : a < 2 ^ 30 := h2
    rw [abs_le] at h'
    simp only [int30, List.length_singleton, pow_one]
    omega
  | a :: b :: l, _, h, h2 => by
    have ih := int30_bound (A := b :: l) (by simp) h.2 (by rwa [List.getLast_cons (by simp)] at h2)
    obtain ⟨h1, -⟩ := h
    have e : int30 (a :: b :: l) = a + 2 ^ 30 * int30 (b :: l) := rfl
    rw [e, show (a :: b :: l).length = (b :: l).length + 1 from rfl, pow_succ ((2 : ℤ) ^ 30)]
    generalize ((2 : ℤ) ^ 30) ^ (b :: l).length = P at *
    omega

theorem int30_low {A : List ℤ} (hA : A ≠ []) (B : List ℤ) :
    Cong 30 (toU32 ((A ++ B).getD 0 0)) (int30 A) := by
  obtain ⟨a, l, rfl⟩ := List.exists_cons_of_ne_nil hA
  refine Int.ModEq.trans (cong_toU32 a (by norm_num)) ?_
  rw [Int.modEq_iff_dvd]
  exact ⟨int30 l, by simp only [int30]; ring⟩


theorem dot_le {u v x y : ℤ} (huv : |u| + |v| ≤ 2 ^ 30) (hx : |x| ≤ 2 ^ 30) (hy : |y| ≤ 2 ^ 30) :
    |u * x| ≤ 2 ^ 60 ∧ |v * y| ≤ 2 ^ 60 ∧ |u * x + v * y| ≤ 2 ^ 60 := by
  have hu : |u| * |x| ≤ |u| * 2 ^ 30 := mul_le_mul_of_nonneg_left hx (abs_nonneg _)
  have hv : |v| * |y| ≤ |v| * 2 ^ 30 := mul_le_mul_of_nonneg_left hy (abs_nonneg _)
  have h3 := abs_add_le (u * x) (v * y)
  rw [abs_mul u x, abs_mul v y] at h3
  rw [abs_mul u x, abs_mul v y]
  have := abs_nonneg u
  have := abs_nonneg v
  have h4 : (|u| + |v|) * 2 ^ 30 ≤ 2 ^ 30 * 2 ^ 30 := mul_le_mul_of_nonneg_right huv (by norm_num)
  refine ⟨by nlinarith, by nlinarith, by nlinarith⟩

theorem dot2_some {u v x y : ℤ} (huv : |u| + |v| ≤ 2 ^ 30) (hx : |x| ≤ 2 ^ 30)
    (hy : |y| ≤ 2 ^ 30) : dot2 u x v y = some (u * x + v * y) := by
  obtain ⟨h1, h2, h3⟩ := dot_le huv hx hy
  rw [abs_le] at *
  unfold dot2
  rw [i64?_some (by omega) (by omega), Option.bind_some, i64?_some (by omega) (by omega),
    Option.bind_some, i64?_some (by omega) (by omega)]

theorem accumMul_some {c a b : ℤ} (h1 : |a * b| ≤ 2 ^ 61) (h2 : |c| ≤ 2 ^ 62) :
    accumMul c a b = some (c + a * b) := by
  rw [abs_le] at h1 h2
  unfold accumMul
  rw [i64?_some (by omega) (by omega), Option.bind_some, i64?_some (by omega) (by omega)]

theorem mod_le {m md : ℤ} (h1 : |m| < 2 ^ 30) (h2 : |md| ≤ 2 ^ 31) : |m * md| ≤ 2 ^ 61 := by
  rw [abs_mul]
  calc |m| * |md| ≤ 2 ^ 30 * 2 ^ 31 := mul_le_mul h1.le h2 (abs_nonneg _) (by norm_num)
    _ = 2 ^ 61 := by norm_num

/-- The low bits of an accumulator. -/
theorem low_eq (c : ℤ) : and32 (toI32 c) m30 = c % 2 ^ 30 := by
  rw [and32_m30]
  unfold toI32
  omega

/-- The rest of the number after one limb has been stored. -/
theorem rest_bound {c Y P : ℤ} (hp : 0 < P) (h : |c + 2 ^ 30 * Y| ≤ 2 ^ 30 * (P * 2 ^ 30)) :
    |c / 2 ^ 30 + Y| ≤ 2 ^ 30 * P := by
  rw [abs_le] at *
  omega

theorem fgRowLoop_spec {u v : ℤ} (huv : |u| + |v| ≤ 2 ^ 30) : ∀ {fs gs : List ℤ} {c : ℤ},
    fs.length = gs.length → SmallL fs → SmallL gs → |c| ≤ 2 ^ 60 →
    |c + u * int30 fs + v * int30 gs| ≤ 2 ^ 30 * (2 ^ 30) ^ fs.length →
    ∃ r, fgRowLoop u v fs gs c = some r ∧ r.length = fs.length + 1 ∧ LowL r ∧
      int30 r = c + u * int30 fs + v * int30 gs
  | [], [], c, _, _, _, hc, hb => by
    have hb' : |c| ≤ 2 ^ 30 := by simpa [int30] using hb
    have e : toI32 c = c := by
      rw [abs_le] at hb'
      exact toI32_eq (by omega) (by omega)
    refine ⟨[toI32 c], by simp [fgRowLoop], rfl, ?_, ?_⟩
    · rw [e]; exact hb'
    · rw [e]; simp [int30]
  | f :: fs, g :: gs, c, hl, hf, hg, hc, hb => by
    have hf0 := hf f (by simp)
    have hg0 := hg g (by simp)
    have hfs : SmallL fs := fun a ha => hf a (by simp [ha])
    have hgs : SmallL gs := fun a ha => hg a (by simp [ha])
    have e0 := dot2_some huv hf0 hg0
    have b1 := (dot_le huv hf0 hg0).2.2
    obtain ⟨c1, hc1⟩ : ∃ c1, c1 = c + (u * f + v * g) := ⟨_, rfl⟩
    have hcb : |c1| ≤ 2 ^ 61 := by rw [hc1]; rw [abs_le] at *; omega
    have e1 : i64? (c + (u * f + v * g)) = some c1 := by
      rw [← hc1]; rw [abs_le] at hcb; exact i64?_some (by omega) (by omega)
    have hs : |c1 / 2 ^ 30| ≤ 2 ^ 60 := by clear * - hcb; rw [abs_le] at *; omega
    have hX : c + u * int30 (f :: fs) + v * int30 (g :: gs) =
        c1 + 2 ^ 30 * (u * int30 fs + v * int30 gs) := by
      rw [hc1]; simp only [int30]; ring
    rw [hX] at hb ⊢
    have hb2 : |c1 / 2 ^ 30 + u * int30 fs + v * int30 gs| ≤ 2 ^ 30 * (2 ^ 30) ^ fs.length := by
      rw [List.length_cons, pow_succ ((2 : ℤ) ^ 30)] at hb
      rw [add_assoc]
      exact rest_bound (by positivity) hb
    obtain ⟨r, er, lr, hr, vr⟩ := fgRowLoop_spec huv (c := c1 / 2 ^ 30) (by simpa using hl) hfs hgs
      hs hb2
    refine ⟨and32 (toI32 c1) m30 :: r, ?_, by simp [lr], ?_, ?_⟩
    · unfold fgRowLoop
      rw [e0, Option.bind_some, e1, Option.bind_some, er, Option.bind_some]
    · cases r with
      | nil => simp at lr
      | cons a r =>
        refine ⟨?_, hr⟩
        rw [low_eq]; omega
    · simp only [int30]
      rw [low_eq, vr]
      have : c1 = c1 % 2 ^ 30 + 2 ^ 30 * (c1 / 2 ^ 30) := by omega
      linear_combination -this

theorem fgRow_spec {u v x : ℤ} (huv : |u| + |v| ≤ 2 ^ 30) {A B A' B' : List ℤ}
    (hA : A ≠ []) (hl : A.length = A'.length) (hs : SmallL A) (hs' : SmallL A')
    (h : 2 ^ 30 * x = u * int30 A + v * int30 A') (hx : |x| ≤ (2 ^ 30) ^ A.length) :
    ∃ r, fgRow u v A.length (A ++ B) (A' ++ B') = some r ∧ r.length = A.length ∧ LowL r ∧
      int30 r = x := by
  obtain ⟨a, fs, rfl⟩ := List.exists_cons_of_ne_nil hA
  obtain ⟨b, gs, rfl⟩ := List.exists_cons_of_ne_nil (l := A') (by rintro rfl; simp at hl)
  have hf0 := hs a (by simp)
  have hg0 := hs' b (by simp)
  have hfs : SmallL fs := fun y hy => hs y (by simp [hy])
  have hgs : SmallL gs := fun y hy => hs' y (by simp [hy])
  have e1 := dot2_some huv hf0 hg0
  have b1 := (dot_le huv hf0 hg0).2.2
  obtain ⟨c1, hc1⟩ : ∃ c1, c1 = u * a + v * b := ⟨_, rfl⟩
  rw [← hc1] at e1 b1
  have hsb : |c1 / 2 ^ 30| ≤ 2 ^ 60 := by clear * - b1; rw [abs_le] at *; omega
  have hX : 2 ^ 30 * x = c1 + 2 ^ 30 * (u * int30 fs + v * int30 gs) := by
    rw [h, hc1]; simp only [int30]; ring
  have hX' : c1 / 2 ^ 30 + u * int30 fs + v * int30 gs = x := by
    rw [add_assoc]
    generalize u * int30 fs + v * int30 gs = Y at *
    omega
  obtain ⟨r, er, lr, hr, vr⟩ := fgRowLoop_spec huv (c := c1 / 2 ^ 30) (fs := fs) (gs := gs)
    (by simpa using hl) hfs hgs hsb (by
      rw [hX']
      rw [List.length_cons, pow_succ ((2 : ℤ) ^ 30), mul_comm] at hx
      exact hx)
  refine ⟨r, ?_, by simp [lr], hr, by rw [vr, hX']⟩
  unfold fgRow
  have t1 : ((a :: fs ++ B).take (a :: fs).length).drop 1 = fs := by
    rw [List.take_left]; rfl
  have t2 : ((b :: gs ++ B').take (a :: fs).length).drop 1 = gs := by
    rw [hl, List.take_left]; rfl
  rw [t1, t2]
  have g1 : (a :: fs ++ B).getD 0 0 = a := rfl
  have g2 : (b :: gs ++ B').getD 0 0 = b := rfl
  rw [g1, g2, e1, Option.bind_some]
  exact er

set_option exponentiation.threshold 500 in
theorem updateFg30_spec {t : Trans} {x y : ℤ} {f g : List ℤ} (huv : |t.u| + |t.v| ≤ 2 ^ 30)
    (hqr : |t.q| + |t.r| ≤ 2 ^ 30) (lf : f.length = 9) (lg : g.length = 9) (hf : SmallL f)
    (hg : SmallL g) (h : 2 ^ 30 * x = t.u * int30 f + t.v * int30 g) (hx : |x| ≤ 2 ^ 257)
    (h' : 2 ^ 30 * y = t.q * int30 f + t.r * int30 g) (hy : |y| ≤ 2 ^ 257) :
    ∃ f' g', updateFg30 f g t = some (f', g') ∧ int30 f' = x ∧ int30 g' = y ∧ LowL f' ∧ LowL g' ∧
      f'.length = 9 ∧ g'.length = 9 := by
  have hne : f ≠ [] := by rintro rfl; simp at lf
  have hb : (2 : ℤ) ^ 257 ≤ (2 ^ 30) ^ f.length := by rw [lf]; norm_num
  obtain ⟨f', e1, l1, h1, v1⟩ := fgRow_spec (B := []) (B' := []) huv hne (by omega) hf hg h (hx.trans hb)
  obtain ⟨g', e2, l2, h2, v2⟩ := fgRow_spec (B := []) (B' := []) hqr hne (by omega) hf hg h' (hy.trans hb)
  rw [List.append_nil, List.append_nil, lf] at e1 e2
  refine ⟨f', g', ?_, v1, v2, h1, h2, by omega, by omega⟩
  unfold updateFg30
  rw [e1, Option.bind_some, e2, Option.bind_some]

/-- All limbs below `2^30` in absolute value. -/
def ModL (l : List ℤ) : Prop := ∀ a ∈ l, |a| < 2 ^ 30

theorem deRowLoop_spec {u v md : ℤ} (huv : |u| + |v| ≤ 2 ^ 30) (hmd : |md| ≤ 2 ^ 31) :
    ∀ {ds es ms : List ℤ} {c : ℤ}, ds.length = es.length → ds.length = ms.length → SmallL ds →
    SmallL es → ModL ms → |c| ≤ 2 ^ 33 →
    |c + u * int30 ds + v * int30 es + md * int30 ms| ≤ 2 ^ 30 * (2 ^ 30) ^ ds.length →
    ∃ r, deRowLoop u v md ds es ms c = some r ∧ r.length = ds.length + 1 ∧ LowL r ∧
      int30 r = c + u * int30 ds + v * int30 es + md * int30 ms
  | [], [], [], c, _, _, _, _, _, hc, hb => by
    have hb' : |c| ≤ 2 ^ 30 := by simpa [int30] using hb
    have e : toI32 c = c := by
      rw [abs_le] at hb'
      exact toI32_eq (by omega) (by omega)
    refine ⟨[toI32 c], by simp [deRowLoop], rfl, ?_, ?_⟩
    · rw [e]; exact hb'
    · rw [e]; simp [int30]
  | d :: ds, e :: es, m :: ms, c, hl, hl', hd, he, hm, hc, hb => by
    have hd0 := hd d (by simp)
    have he0 := he e (by simp)
    have hm0 := hm m (by simp)
    have hds : SmallL ds := fun a ha => hd a (by simp [ha])
    have hes : SmallL es := fun a ha => he a (by simp [ha])
    have hms : ModL ms := fun a ha => hm a (by simp [ha])
    have e0 := dot2_some huv hd0 he0
    have b1 := (dot_le huv hd0 he0).2.2
    have b2 := mod_le hm0 hmd
    obtain ⟨s, hs⟩ : ∃ s, s = c + (u * d + v * e) := ⟨_, rfl⟩
    have hsb : |s| ≤ 2 ^ 61 := by rw [hs]; rw [abs_le] at *; omega
    have e1 : i64? (c + (u * d + v * e)) = some s := by
      rw [← hs]; rw [abs_le] at hsb; exact i64?_some (by omega) (by omega)
    have e2 := accumMul_some (c := s) b2 (by omega)
    obtain ⟨c1, hc1⟩ : ∃ c1, c1 = s + m * md := ⟨_, rfl⟩
    rw [← hc1] at e2
    have hcs : |c1 / 2 ^ 30| ≤ 2 ^ 33 := by
      rw [hc1]
      clear * - hsb b2
      generalize m * md = y at *
      rw [abs_le] at *
      omega
    have hX : c + u * int30 (d :: ds) + v * int30 (e :: es) + md * int30 (m :: ms) =
        c1 + 2 ^ 30 * (u * int30 ds + v * int30 es + md * int30 ms) := by
      rw [hc1, hs]; simp only [int30]; ring
    rw [hX] at hb ⊢
    have hb2 : |c1 / 2 ^ 30 + u * int30 ds + v * int30 es + md * int30 ms| ≤
        2 ^ 30 * (2 ^ 30) ^ ds.length := by
      rw [List.length_cons, pow_succ ((2 : ℤ) ^ 30)] at hb
      rw [add_assoc, add_assoc, ← add_assoc (u * int30 ds)]
      exact rest_bound (by positivity) hb
    obtain ⟨r, er, lr, hr, vr⟩ := deRowLoop_spec huv hmd (c := c1 / 2 ^ 30) (by simpa using hl)
      (by simpa using hl') hds hes hms hcs hb2
    refine ⟨and32 (toI32 c1) m30 :: r, ?_, by simp [lr], ?_, ?_⟩
    · unfold deRowLoop
      rw [e0, Option.bind_some, e1, Option.bind_some, e2, Option.bind_some, er, Option.bind_some]
    · cases r with
      | nil => simp at lr
      | cons a r =>
        refine ⟨?_, hr⟩
        rw [low_eq]; omega
    · simp only [int30]
      rw [low_eq, vr]
      have : c1 = c1 % 2 ^ 30 + 2 ^ 30 * (c1 / 2 ^ 30) := by omega
      linear_combination -this

/-- The addend that makes the low bits vanish. -/
theorem de_addend {M : Modinfo} {m : ℤ} (hM : M.Ok m) {md0 c : ℤ} (h : |md0| ≤ 2 ^ 30) :
    ∃ k : ℤ, 0 ≤ k ∧ k < 2 ^ 30 ∧ (c + m * (md0 - k)) % 2 ^ 30 = 0 ∧
    (c = 0 → md0 = 0 → k = 0) ∧
    toI32 (u32 (toU32 md0 + (2 ^ 32 - (u32 (u32 (M.inv30 * toU32 c) + toU32 md0) &&& m30))) : ℕ) =
      md0 - k := by
  obtain ⟨w, hw⟩ : ∃ w, w = u32 (u32 (M.inv30 * toU32 c) + toU32 md0) &&& m30 := ⟨_, rfl⟩
  rw [← hw]
  have hwl : w < 2 ^ 30 := by rw [hw, land_m30]; omega
  have hcong : Cong 30 w (M.inv30 * c + md0) := by
    rw [hw, land_m30]
    have h1 : Cong 30 (u32 (u32 (M.inv30 * toU32 c) + toU32 md0)) (M.inv30 * c + md0) :=
      (((Cong.mul (Cong.of_eq rfl) (cong_toU32 c (by norm_num))).u32 (by norm_num)).add
        (cong_toU32 md0 (by norm_num))).u32 (by norm_num)
    refine Int.ModEq.trans ?_ h1
    push_cast
    exact Int.mod_modEq _ _
  refine ⟨w, by omega, by omega, ?_, ?_, ?_⟩
  · have h2 : c + m * (md0 - w) ≡ 0 [ZMOD 2 ^ 30] := by
      have hi : (M.inv30 : ℤ) * m ≡ 1 [ZMOD 2 ^ 30] := by
        unfold Int.ModEq; rw [hM.inv]; norm_num
      have h3 : c + m * (md0 - w) ≡ c + m * (md0 - (M.inv30 * c + md0)) [ZMOD 2 ^ 30] :=
        Int.ModEq.add_left _ (Int.ModEq.mul_left _ (Int.ModEq.sub_left _ hcong))
      refine h3.trans ?_
      have e : c + m * (md0 - (M.inv30 * c + md0)) = c - (M.inv30 * m) * c := by ring
      rw [e]
      have := Int.ModEq.sub_left c (Int.ModEq.mul_right c hi)
      simpa using this
    simpa [Int.ModEq] using h2
  · rintro rfl rfl
    rw [hw]
    simp [toU32_zero, u32]
  · have := toU32_cast md0
    have := toU32_lt md0
    rw [abs_le] at h
    unfold u32 toI32
    omega

/-- The last of nine limbs. -/
theorem getD8 {l : List ℤ} (h : l.length = 9) (hne : l ≠ []) : l.getD 8 0 = l.getLast hne := by
  have := getD_last (B := []) hne
  rw [List.append_nil, h] at this
  exact this

/-- A mask made of the sign of a number. -/
theorem and32_sign {d : List ℤ} (hd : LowL d) (hl : d.length = 9) {w : ℤ} (hw : |w| ≤ 2 ^ 30) :
    and32 w (d.getD 8 0 / 2 ^ 31) = if int30 d < 0 then w else 0 := by
  have hne : d ≠ [] := by rintro rfl; simp at hl
  have ht := hd.small _ (List.getLast_mem hne)
  have hs := hd.sign hne
  rw [getD8 hl hne]
  rw [abs_le] at ht hw
  by_cases hc : int30 d < 0
  · rw [if_pos hc, sign_neg (by omega) (hs.mpr hc), and32_neg_one (by omega) (by omega)]
  · have : ¬ d.getLast hne < 0 := fun h => hc (hs.mp h)
    rw [if_neg hc, sign_nonneg (by omega) (by omega), and32_zero]

/-- One row of the update of `d` and `e`. -/
theorem updateDeRow_spec {M : Modinfo} {m : ℤ} (hM : M.Ok m) {u v : ℤ} {d e : List ℤ}
    (huv : |u| + |v| ≤ 2 ^ 30) (hd : LowL d) (he : LowL e) (ld : d.length = 9) (le : e.length = 9)
    (hd1 : -2 * m < int30 d) (hd2 : int30 d < m) (he1 : -2 * m < int30 e) (he2 : int30 e < m) :
    ∃ r, updateDeRow u v d e M = some r ∧ LowL r ∧ r.length = 9 ∧ -2 * m < int30 r ∧ int30 r < m ∧
      2 ^ 30 * int30 r ≡ u * int30 d + v * int30 e [ZMOD m] ∧ (int30 d = 0 → v = 0 → int30 r = 0) := by
  have hm1 := hM.ge
  have hm2 := hM.le
  have hu : |u| ≤ 2 ^ 30 := by have := abs_nonneg v; omega
  have hv : |v| ≤ 2 ^ 30 := by have := abs_nonneg u; omega
  -- signs
  obtain ⟨md0, hmd⟩ : ∃ md0, md0 = (if int30 d < 0 then u else 0) + (if int30 e < 0 then v else 0) :=
    ⟨_, rfl⟩
  have hmdb : |md0| ≤ 2 ^ 30 := by
    rw [hmd]
    refine (abs_add_le _ _).trans (le_trans (add_le_add ?_ ?_) huv)
    · split <;> simp
    · split <;> simp
  have emd : i32? (and32 u (d.getD 8 0 / 2 ^ 31) + and32 v (e.getD 8 0 / 2 ^ 31)) = some md0 := by
    rw [and32_sign hd ld hu, and32_sign he le hv, ← hmd]
    rw [abs_le] at hmdb
    exact i32?_some (by omega) (by omega)
  -- the lists
  have hds := hd.small
  have hes := he.small
  obtain ⟨d0, ds, rfl⟩ := List.exists_cons_of_ne_nil (l := d) (by rintro rfl; simp at ld)
  obtain ⟨e0, es, rfl⟩ := List.exists_cons_of_ne_nil (l := e) (by rintro rfl; simp at le)
  obtain ⟨mo, minv⟩ := M
  have lm : mo.length = 9 := hM.len
  obtain ⟨m0, ms, rfl⟩ := List.exists_cons_of_ne_nil (l := mo) (by rintro rfl; simp at lm)
  have hM0 : |m0| < 2 ^ 30 := hM.limb m0 (by simp)
  have hMs : ModL ms := fun a ha => hM.limb a (by simp [ha])
  have hMv : m0 + 2 ^ 30 * int30 ms = m := hM.val
  have e1 := dot2_some huv (hds d0 (by simp)) (hes e0 (by simp))
  have b1 := (dot_le huv (hds d0 (by simp)) (hes e0 (by simp))).2.2
  obtain ⟨k, hk0, hk1, hkz, hkc, hke⟩ := de_addend hM (c := u * d0 + v * e0) hmdb
  have hmdle : |md0 - k| ≤ 2 ^ 31 := by
    clear * - hmdb hk0 hk1
    rw [abs_le] at hmdb ⊢
    omega
  -- the exact value
  obtain ⟨X, hX⟩ : ∃ X, X = u * int30 (d0 :: ds) + v * int30 (e0 :: es) + m * (md0 - k) := ⟨_, rfl⟩
  obtain ⟨c1, hc1⟩ : ∃ c1, c1 = u * d0 + v * e0 + m0 * (md0 - k) := ⟨_, rfl⟩
  have hlow : c1 % 2 ^ 30 = 0 := by
    have e2 : u * d0 + v * e0 + m * (md0 - k) = c1 + 2 ^ 30 * (int30 ms * (md0 - k)) := by
      rw [hc1, ← hMv]; ring
    rw [e2, Int.add_mul_emod_self_left] at hkz
    exact hkz
  have hXs : X = c1 + 2 ^ 30 * (u * int30 ds + v * int30 es + (md0 - k) * int30 ms) := by
    rw [hX, hc1, ← hMv]; simp only [int30]; ring
  -- range of the exact value
  have hrange : -2 * m * 2 ^ 30 < X ∧ X < m * 2 ^ 30 := by
    have hX' : X = u * (int30 (d0 :: ds) + if int30 (d0 :: ds) < 0 then m else 0) +
        v * (int30 (e0 :: es) + if int30 (e0 :: es) < 0 then m else 0) - m * k := by
      rw [hX, hmd]; split <;> split <;> ring
    have hD : |int30 (d0 :: ds) + if int30 (d0 :: ds) < 0 then m else 0| ≤ m - 1 := by
      rw [abs_le]; split <;> constructor <;> omega
    have hE : |int30 (e0 :: es) + if int30 (e0 :: es) < 0 then m else 0| ≤ m - 1 := by
      rw [abs_le]; split <;> constructor <;> omega
    generalize (int30 (d0 :: ds) + if int30 (d0 :: ds) < 0 then m else 0) = D at *
    generalize (int30 (e0 :: es) + if int30 (e0 :: es) < 0 then m else 0) = E at *
    have h1 : |u * D + v * E| ≤ 2 ^ 30 * (m - 1) := by
      refine (abs_add_le _ _).trans ?_
      rw [abs_mul, abs_mul]
      have a1 := mul_le_mul_of_nonneg_left hD (abs_nonneg u)
      have a2 := mul_le_mul_of_nonneg_left hE (abs_nonneg v)
      have a3 : (|u| + |v|) * (m - 1) ≤ 2 ^ 30 * (m - 1) :=
        mul_le_mul_of_nonneg_right huv (by omega)
      linarith
    rw [abs_le] at h1
    have hk2 : m * k ≤ m * (2 ^ 30 - 1) := mul_le_mul_of_nonneg_left (by omega) (by omega)
    have hk3 : 0 ≤ m * k := mul_nonneg (by omega) hk0
    rw [hX']
    constructor <;> nlinarith
  have hz0 : int30 (d0 :: ds) = 0 → v = 0 → X = 0 := by
    intro hd0 hv0
    have hm0 : md0 = 0 := by rw [hmd, hd0, hv0]; simp
    have hdv : d0 = 0 := hd.zero.mp hd0 d0 (by simp)
    have hk : k = 0 := hkc (by rw [hdv, hv0]; ring) hm0
    rw [hX, hd0, hv0, hm0, hk]; ring
  have hmodX : X ≡ u * int30 (d0 :: ds) + v * int30 (e0 :: es) [ZMOD m] := by
    rw [hX, Int.modEq_iff_dvd]
    exact ⟨-(md0 - k), by ring⟩
  have b2 := mod_le hM0 hmdle
  have e2 : accumMul (u * d0 + v * e0) m0 (md0 - k) = some c1 := by
    rw [hc1]; exact accumMul_some b2 (by omega)
  have hc1b : |c1 / 2 ^ 30| ≤ 2 ^ 33 := by
    rw [hc1]
    clear * - b1 b2
    generalize u * d0 + v * e0 = x at *
    generalize m0 * (md0 - k) = y at *
    rw [abs_le] at *
    omega
  obtain ⟨r, er, lr, hr, vr⟩ := deRowLoop_spec (u := u) (v := v) (md := md0 - k) huv hmdle (ds := ds)
    (es := es) (ms := ms) (c := c1 / 2 ^ 30) (by simp only [List.length_cons] at ld le; omega)
    (by simp only [List.length_cons] at ld lm; omega) (fun a ha => hds a (by simp [ha]))
    (fun a ha => hes a (by simp [ha])) hMs hc1b (by
      have hl8 : ds.length = 8 := by simp only [List.length_cons] at ld; omega
      rw [hl8, add_assoc, add_assoc, ← add_assoc (u * int30 ds)]
      generalize u * int30 ds + v * int30 es + (md0 - k) * int30 ms = Y at *
      clear * - hXs hlow hrange hm2 hm1
      rw [abs_le]
      norm_num
      constructor <;> omega)
  have hX2 : 2 ^ 30 * int30 r = X := by
    rw [vr, add_assoc, add_assoc, ← add_assoc (u * int30 ds)]
    generalize u * int30 ds + v * int30 es + (md0 - k) * int30 ms = Y at *
    clear * - hXs hlow
    omega
  refine ⟨r, ?_, hr, by simp only [List.length_cons] at ld; omega, ?_, ?_, ?_, ?_⟩
  · unfold updateDeRow
    simp only [emd, Option.bind_some]
    have g1 : (d0 :: ds).getD 0 0 = d0 := rfl
    have g2 : (e0 :: es).getD 0 0 = e0 := rfl
    have g3 : (m0 :: ms).getD 0 0 = m0 := rfl
    rw [g1, g2, g3, e1, Option.bind_some]
    dsimp only at hke ⊢
    rw [hke, e2, Option.bind_some]
    exact er
  · clear * - hX2 hrange; omega
  · clear * - hX2 hrange; omega
  · rw [hX2]; exact hmodX
  · intro hd0 hv0
    have := hz0 hd0 hv0
    clear * - hX2 this; omega

theorem updateDe30_spec {M : Modinfo} {m : ℤ} (hM : M.Ok m) {t : Trans} {d e : List ℤ}
    (huv : |t.u| + |t.v| ≤ 2 ^ 30) (hqr : |t.q| + |t.r| ≤ 2 ^ 30) (hd : LowL d) (he : LowL e)
    (ld : d.length = 9) (le : e.length = 9)
    (hd1 : -2 * m < int30 d) (hd2 : int30 d < m) (he1 : -2 * m < int30 e) (he2 : int30 e < m) :
    ∃ d' e', updateDe30 d e t M = some (d', e') ∧ (LowL d' ∧ d'.length = 9) ∧
      (LowL e' ∧ e'.length = 9) ∧
      -2 * m < int30 d' ∧ int30 d' < m ∧ -2 * m < int30 e' ∧ int30 e' < m ∧
      2 ^ 30 * int30 d' ≡ t.u * int30 d + t.v * int30 e [ZMOD m] ∧
      2 ^ 30 * int30 e' ≡ t.q * int30 d + t.r * int30 e [ZMOD m] ∧
      (int30 d = 0 → t.v = 0 → int30 d' = 0) := by
  obtain ⟨d', h1, l1, n1, a1, b1, m1, z1⟩ := updateDeRow_spec hM huv hd he ld le hd1 hd2 he1 he2
  obtain ⟨e', h2, l2, n2, a2, b2, m2, -⟩ := updateDeRow_spec hM hqr hd he ld le hd1 hd2 he1 he2
  refine ⟨d', e', ?_, ⟨l1, n1⟩, ⟨l2, n2⟩, a1, b1, a2, b2, m1, m2, z1⟩
  unfold updateDe30
  rw [h1, Option.bind_some, h2, Option.bind_some]

end Secp.Model.M32
