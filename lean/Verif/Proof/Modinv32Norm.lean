import Verif.Proof.Modinv32Update

/-!
The final normalization of the inversion, on 30-bit limbs.
-/

namespace Secp.Model.M32

/-- Limbs to which a limb of the modulus can be added. -/
def AddL (l : List ℤ) : Prop := ∀ a ∈ l, -2 ^ 20 ≤ a ∧ a < 2 ^ 30

/-- Limbs whose carries can be propagated. -/
def CarryL (l : List ℤ) : Prop := ∀ a ∈ l, |a| ≤ 2 ^ 31 - 2

theorem normLimbs_spec (a b : Prop) [Decidable a] [Decidable b] {ca cb : ℤ}
    (ha : ca = if a then -1 else 0) (hb : cb = if b then -1 else 0) :
    ∀ {rs ms : List ℤ}, rs.length = ms.length → AddL rs → ModL ms →
    ∃ l, normLimbs ca cb rs ms = some l ∧ l.length = rs.length ∧ CarryL l ∧
      int30 l = (int30 rs + if a then int30 ms else 0) * if b then -1 else 1
  | [], [], _, _, _ => ⟨[], rfl, rfl, by simp [CarryL], by simp [int30]⟩
  | r :: rs, m :: ms, hl, h1, h2 => by
    have hr := h1 r (by simp)
    have hm := h2 m (by simp)
    rw [abs_lt] at hm
    obtain ⟨l, el, ll, hl', vl⟩ := normLimbs_spec a b ha hb (rs := rs) (ms := ms) (by simpa using hl)
      (fun x hx => h1 x (by simp [hx])) (fun x hx => h2 x (by simp [hx]))
    have e1 : and32 m ca = if a then m else 0 := by
      rw [ha]
      split
      · exact and32_neg_one (by omega) (by omega)
      · exact and32_zero m
    obtain ⟨s, hs⟩ : ∃ s, s = r + if a then m else 0 := ⟨_, rfl⟩
    have e2 : -(2 ^ 31 - 2) ≤ s ∧ s ≤ 2 ^ 31 - 2 := by
      rw [hs]; split <;> omega
    have e3 : i32? (r + and32 m ca) = some s := by
      rw [e1, ← hs]; exact i32?_some (by omega) (by omega)
    have e4 : i32? (xor32 s cb - cb) = some (s * if b then -1 else 1) := by
      rw [hb]
      split
      · rw [xor32_neg_one (by omega) (by omega), i32?_some (by omega) (by omega),
          show -s - 1 - -1 = s * -1 by ring]
      · rw [xor32_zero (by omega) (by omega), i32?_some (by omega) (by omega),
          show s - 0 = s * 1 by ring]
    refine ⟨(s * if b then -1 else 1) :: l, ?_, by simp [ll], ?_, ?_⟩
    · unfold normLimbs
      rw [e3, Option.bind_some, e4, Option.bind_some, el, Option.bind_some]
    · intro x hx
      rcases List.mem_cons.mp hx with rfl | hx
      · rw [abs_le]; split <;> omega
      · exact hl' x hx
    · simp only [int30]
      rw [vl, hs]
      split <;> split <;> ring

theorem addLimbs_spec (a : Prop) [Decidable a] {ca : ℤ} (ha : ca = if a then -1 else 0) :
    ∀ {rs ms : List ℤ}, rs.length = ms.length → AddL rs → ModL ms →
    ∃ l, addLimbs ca rs ms = some l ∧ l.length = rs.length ∧ CarryL l ∧
      int30 l = int30 rs + if a then int30 ms else 0
  | [], [], _, _, _ => ⟨[], rfl, rfl, by simp [CarryL], by simp [int30]⟩
  | r :: rs, m :: ms, hl, h1, h2 => by
    have hr := h1 r (by simp)
    have hm := h2 m (by simp)
    rw [abs_lt] at hm
    obtain ⟨l, el, ll, hl', vl⟩ := addLimbs_spec a ha (rs := rs) (ms := ms) (by simpa using hl)
      (fun x hx => h1 x (by simp [hx])) (fun x hx => h2 x (by simp [hx]))
    have e1 : and32 m ca = if a then m else 0 := by
      rw [ha]
      split
      · exact and32_neg_one (by omega) (by omega)
      · exact and32_zero m
    obtain ⟨s, hs⟩ : ∃ s, s = r + if a then m else 0 := ⟨_, rfl⟩
    have e2 : -(2 ^ 31 - 2) ≤ s ∧ s ≤ 2 ^ 31 - 2 := by
      rw [hs]; split <;> omega
    have e3 : i32? (r + and32 m ca) = some s := by
      rw [e1, ← hs]; exact i32?_some (by omega) (by omega)
    refine ⟨s :: l, ?_, by simp [ll], ?_, ?_⟩
    · unfold addLimbs
      rw [e3, Option.bind_some, el, Option.bind_some]
    · intro x hx
      rcases List.mem_cons.mp hx with rfl | hx
      · rw [abs_le]; omega
      · exact hl' x hx
    · simp only [int30]
      rw [vl, hs]
      split <;> ring

theorem normCarryFrom_spec : ∀ {l : List ℤ} {r : ℤ}, -2 ^ 31 ≤ r → r < 2 ^ 31 → CarryL l →
    |r + 2 ^ 30 * int30 l| ≤ 2 ^ 30 * (2 ^ 30) ^ l.length →
    ∃ s, normCarryFrom r l = some s ∧ s.length = l.length + 1 ∧ LowL s ∧
      int30 s = r + 2 ^ 30 * int30 l
  | [], r, _, _, _, hb => ⟨[r], rfl, rfl, by simpa [int30, LowL] using hb, by simp [int30]⟩
  | a :: l, r, h1, h2, hl, hb => by
    have ha := hl a (by simp)
    rw [abs_le] at ha
    have hb2 : |a + r / 2 ^ 30 + 2 ^ 30 * int30 l| ≤ 2 ^ 30 * (2 ^ 30) ^ l.length := by
      rw [List.length_cons, pow_succ ((2 : ℤ) ^ 30)] at hb
      have := rest_bound (by positivity) hb
      simp only [int30] at this
      rw [show a + r / 2 ^ 30 + 2 ^ 30 * int30 l = r / 2 ^ 30 + (a + 2 ^ 30 * int30 l) by ring]
      exact this
    obtain ⟨s, es, ls, hs, vs⟩ := normCarryFrom_spec (l := l) (r := a + r / 2 ^ 30) (by omega)
      (by omega) (fun x hx => hl x (by simp [hx])) hb2
    refine ⟨and32 r m30 :: s, ?_, by simp [ls], ?_, ?_⟩
    · unfold normCarryFrom
      rw [i32?_some (by omega) (by omega), Option.bind_some, es, Option.bind_some]
    · cases s with
      | nil => simp at ls
      | cons x s => exact ⟨by rw [and32_m30]; omega, hs⟩
    · simp only [int30]
      rw [vs, and32_m30]
      have : r = r % 2 ^ 30 + 2 ^ 30 * (r / 2 ^ 30) := by omega
      linear_combination -this

theorem normCarry_spec {l : List ℤ} (hl : l.length = 9) (h : CarryL l) (hb : |int30 l| ≤ 2 ^ 256) :
    ∃ s, normCarry l = some s ∧ s.length = 9 ∧ LowL s ∧ int30 s = int30 l := by
  obtain ⟨a, l, rfl⟩ := List.exists_cons_of_ne_nil (l := l) (by rintro rfl; simp at hl)
  have ha := h a (by simp)
  rw [abs_le] at ha
  have hl8 : l.length = 8 := by simpa using hl
  obtain ⟨s, es, ls, hs, vs⟩ := normCarryFrom_spec (l := l) (r := a) (by omega) (by omega)
    (fun x hx => h x (by simp [hx])) (by
      rw [hl8]
      exact le_trans hb (by norm_num))
  exact ⟨s, es, by omega, hs, vs⟩

theorem sign_eq {x : ℤ} (h1 : -2 ^ 31 ≤ x) (h2 : x < 2 ^ 31) :
    x / 2 ^ 31 = if x < 0 then -1 else 0 := by
  split <;> omega

/-- The top limb is the number divided by the weight of that limb. -/
theorem LowL.top : ∀ {l : List ℤ} (hl : l ≠ []), LowL l →
    (2 ^ 30) ^ (l.length - 1) * l.getLast hl ≤ int30 l ∧
    int30 l < (2 ^ 30) ^ (l.length - 1) * (l.getLast hl + 1)
  | [a], _, _ => by simp [int30]
  | a :: b :: l, _, h => by
    have ih := LowL.top (l := b :: l) (by simp) h.2
    obtain ⟨h1, -⟩ := h
    have e : int30 (a :: b :: l) = a + 2 ^ 30 * int30 (b :: l) := rfl
    have e2 : (a :: b :: l).length - 1 = ((b :: l).length - 1) + 1 := rfl
    rw [List.getLast_cons (by simp), e, e2, pow_succ ((2 : ℤ) ^ 30)]
    generalize (b :: l).getLast _ = t at *
    generalize ((2 : ℤ) ^ 30) ^ ((b :: l).length - 1) = P at *
    have x1 : P * 2 ^ 30 * t = 2 ^ 30 * (P * t) := by ring
    have x2 : P * 2 ^ 30 * (t + 1) = 2 ^ 30 * (P * (t + 1)) := by ring
    rw [x1, x2]
    generalize P * t = A at *
    generalize P * (t + 1) = B at *
    omega

theorem LowL.top9 {l : List ℤ} (h9 : l.length = 9) (hl : l ≠ []) (h : LowL l)
    (hb : |int30 l| ≤ 2 ^ 257) : |l.getLast hl| ≤ 2 ^ 18 := by
  have := LowL.top hl h
  rw [h9] at this
  norm_num at this
  generalize l.getLast hl = t at *
  generalize int30 l = x at *
  rw [abs_le] at *
  norm_num at hb
  omega

theorem LowL.limb : ∀ {l : List ℤ} (hl : l ≠ []), LowL l →
    ∀ a ∈ l, (0 ≤ a ∧ a < 2 ^ 30) ∨ a = l.getLast hl
  | [b], _, _ => by intro a ha; right; simpa using ha
  | b :: c :: l, _, h => by
    intro a ha
    rcases List.mem_cons.mp ha with rfl | ha
    · exact Or.inl h.1
    · rw [List.getLast_cons (by simp)]
      exact LowL.limb (l := c :: l) (by simp) h.2 a ha

theorem LowL.addL {l : List ℤ} (h9 : l.length = 9) (h : LowL l) (hb : |int30 l| ≤ 2 ^ 257) :
    AddL l := by
  have hne : l ≠ [] := by rintro rfl; simp at h9
  have ht := LowL.top9 h9 hne h hb
  rw [abs_le] at ht
  intro a ha
  rcases LowL.limb hne h a ha with h1 | h1 <;> omega

theorem LowL.canon {l : List ℤ} (h9 : l.length = 9) (h : LowL l) (h0 : 0 ≤ int30 l)
    (hb : int30 l ≤ 2 ^ 257) : Canon l := by
  have hne : l ≠ [] := by rintro rfl; simp at h9
  have ht := LowL.top9 h9 hne h (by rw [abs_of_nonneg h0]; exact hb)
  rw [abs_le] at ht
  have hs : ¬ l.getLast hne < 0 := fun h' => by have := (h.sign hne).mp h'; omega
  refine ⟨h9, fun a ha => ?_⟩
  rcases LowL.limb hne h a ha with h1 | h1 <;> omega

theorem LowL.signMask {l : List ℤ} (h9 : l.length = 9) (h : LowL l) :
    l.getD 8 0 / 2 ^ 31 = if int30 l < 0 then -1 else 0 := by
  have hne : l ≠ [] := by rintro rfl; simp at h9
  have ht := h.small _ (List.getLast_mem hne)
  rw [abs_le] at ht
  rw [getD8 h9 hne, sign_eq (by omega) (by omega)]
  exact if_congr (h.sign hne) rfl rfl

/-- What normalization computes. -/
theorem normalize30_spec {M : Modinfo} {m : ℤ} (hM : M.Ok m) {r : List ℤ} {sign : ℤ} (hr : LowL r)
    (lr : r.length = 9)
    (h1 : -2 * m < int30 r) (h2 : int30 r < m) (hs1 : -2 ^ 31 ≤ sign) (hs2 : sign < 2 ^ 31) :
    ∃ s, normalize30 r sign M = some s ∧ Canon s ∧ 0 ≤ int30 s ∧ int30 s < m ∧
      int30 s ≡ (if sign < 0 then -1 else 1) * int30 r [ZMOD m] ∧ (int30 r = 0 → int30 s = 0) := by
  have hm1 := hM.ge
  have hm2 := hM.le
  have hmod : ModL M.modulus := hM.limb
  have bd : ∀ {y : ℤ}, -2 * m < y → y < m → |y| ≤ 2 ^ 257 := by
    intro y a b
    clear * - a b hm2
    rw [abs_le]
    constructor <;> omega
  obtain ⟨l, el, ll, hl, vl⟩ := normLimbs_spec (int30 r < 0) (sign < 0) (hr.signMask lr)
    (sign_eq hs1 hs2) (lr.trans hM.len.symm) (hr.addL lr (bd h1 h2)) hmod
  rw [hM.val] at vl
  have hx1 : -m < int30 l := by rw [vl]; split <;> split <;> omega
  have hx2 : int30 l < m := by rw [vl]; split <;> split <;> omega
  obtain ⟨x, ex, lx, hx, vx⟩ := normCarry_spec (ll.trans lr) hl (by
    clear * - hx1 hx2 hm2
    rw [abs_le]
    constructor <;> omega)
  rw [← vx] at hx1 hx2
  rw [vl] at vx
  have hxc : int30 x ≡ (if sign < 0 then -1 else 1) * int30 r [ZMOD m] := by
    rw [vx, Int.modEq_iff_dvd]
    refine ⟨-(if int30 r < 0 then 1 else 0) * (if sign < 0 then -1 else 1), ?_⟩
    split <;> split <;> ring
  have hxz : int30 r = 0 → int30 x = 0 := by
    intro h
    rw [vx, h]
    simp
  obtain ⟨y, ey, ly, hy, vy⟩ := addLimbs_spec (int30 x < 0) (hx.signMask lx) (lx.trans hM.len.symm)
    (hx.addL lx (bd (by omega) hx2)) hmod
  rw [hM.val] at vy
  have hy0 : 0 ≤ int30 y := by rw [vy]; split <;> omega
  have hy1 : int30 y < m := by rw [vy]; split <;> omega
  obtain ⟨s, es, ls, hs, vs⟩ := normCarry_spec (ly.trans lx) hy (by rw [abs_of_nonneg hy0]; omega)
  rw [← vs] at hy0 hy1
  refine ⟨s, ?_, hs.canon ls hy0 (by omega), hy0, hy1, ?_, ?_⟩
  · unfold normalize30
    rw [el, Option.bind_some, ex, Option.bind_some, ey, Option.bind_some, es]
  · refine Int.ModEq.trans ?_ hxc
    rw [vs, vy, Int.modEq_iff_dvd]
    refine ⟨-(if int30 x < 0 then 1 else 0), ?_⟩
    split <;> ring
  · intro h
    rw [vs, vy, hxz h]
    simp

end Secp.Model.M32
