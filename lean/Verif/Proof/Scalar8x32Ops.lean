import Verif.Proof.Scalar8x32Mul

/-!
# Helper lemmas: reduction and the other operations of scalars on 32-bit limbs
-/

namespace Secp
open Model

theorem land_ones32 {x : ℕ} (h : x < 2 ^ 32) : x &&& (2 ^ 32 - 1) = x := by
  rw [Nat.and_two_pow_sub_one_eq_mod, Nat.mod_eq_of_lt h]

theorem xor_ones32 {x : ℕ} (h : x < 2 ^ 32) : x ^^^ (2 ^ 32 - 1) = 2 ^ 32 - 1 - x := by
  have hb : BitVec.ofNat 32 x ^^^ BitVec.allOnes 32 = ~~~ BitVec.ofNat 32 x := by
    rw [BitVec.xor_allOnes]
  have := congrArg BitVec.toNat hb
  rw [BitVec.toNat_xor, BitVec.toNat_not, BitVec.toNat_ofNat, BitVec.toNat_allOnes,
    Nat.mod_eq_of_lt h] at this
  exact this

theorem or_eq_zero8 {a b c d e f g h : ℕ} : a ||| b ||| c ||| d ||| e ||| f ||| g ||| h = 0 ↔
    a = 0 ∧ b = 0 ∧ c = 0 ∧ d = 0 ∧ e = 0 ∧ f = 0 ∧ g = 0 ∧ h = 0 := by
  simp only [Nat.or_eq_zero_iff, and_assoc]

theorem words32_lt (l : List ℕ) (h : ∀ w ∈ l, w < 2 ^ 32) : words32 l < 2 ^ (32 * l.length) := by
  induction l with
  | nil => simp [words32]
  | cons w l ih =>
    have h1 := h w List.mem_cons_self
    have h2 := ih fun x hx => h x (List.mem_cons_of_mem _ hx)
    rw [words32, List.length_cons, Nat.mul_add, pow_add, Nat.mul_comm (2 ^ (32 * l.length))]
    have : 2 ^ 32 * (words32 l + 1) ≤ 2 ^ 32 * 2 ^ (32 * l.length) := Nat.mul_le_mul_left _ h2
    omega

theorem words32_append (l m : List ℕ) :
    words32 (l ++ m) = words32 l + 2 ^ (32 * l.length) * words32 m := by
  induction l with
  | nil => simp [words32]
  | cons w l ih =>
    rw [List.cons_append, words32, words32, ih, List.length_cons, Nat.mul_add 32, pow_add]
    ring

namespace Model.Sc8
open Acc32

theorem nat_words (a : Sc8) :
    a.nat = words32 [a.d0, a.d1, a.d2, a.d3, a.d4, a.d5, a.d6, a.d7] := by
  rw [nat_horner]
  simp only [words32]

theorem reduce512c_spec {p0 p1 p2 p3 p4 p5 p6 p7 p8 : ℕ} (h0 : p0 < 2 ^ 32) (h1 : p1 < 2 ^ 32)
    (h2 : p2 < 2 ^ 32) (h3 : p3 < 2 ^ 32) (h4 : p4 < 2 ^ 32) (h5 : p5 < 2 ^ 32) (h6 : p6 < 2 ^ 32)
    (h7 : p7 < 2 ^ 32) (h8 : p8 ≤ 2) :
    (reduce512c [p0, p1, p2, p3, p4, p5, p6, p7, p8]).1.Words ∧
    (reduce512c [p0, p1, p2, p3, p4, p5, p6, p7, p8]).1.nat +
      (reduce512c [p0, p1, p2, p3, p4, p5, p6, p7, p8]).2 * 2 ^ 256 =
      words32 [p0, p1, p2, p3, p4, p5, p6, p7] + p8 * (2 ^ 256 - n) := by
  have e : reduce512c [p0, p1, p2, p3, p4, p5, p6, p7, p8] =
      chain 0xFFFFFFFF (p0 + s8NC0 * p8) (p1 + s8NC1 * p8) (p2 + s8NC2 * p8) (p3 + s8NC3 * p8)
        (p4 + p8) p5 p6 p7 := rfl
  rw [e, s8NC0_eq, s8NC1_eq, s8NC2_eq, s8NC3_eq, nc_eq]
  obtain ⟨hw, he⟩ := chain_spec (x0 := p0 + 0x2FC9BEBF * p8) (x1 := p1 + 0x402DA173 * p8)
    (x2 := p2 + 0x50B75FC4 * p8) (x3 := p3 + 0x45512319 * p8) (x4 := p4 + p8) (x5 := p5) (x6 := p6)
    (x7 := p7) (by omega) (by omega) (by omega) (by omega) (by omega) (by omega) (by omega)
    (by omega)
  refine ⟨hw, he.trans ?_⟩
  simp only [words32]
  ring

/-- The arithmetic of the three reductions. -/
theorem reduce_arith {Lo Hi Mlo Mhi Plo p8 R : ℕ} (hLo : Lo < 2 ^ 256) (hHi : Hi < 2 ^ 256)
    (hMlo : Mlo < 2 ^ 256) (hPlo : Plo < 2 ^ 256)
    (hM : Mlo + 2 ^ 256 * Mhi = Lo + Hi * (2 ^ 256 - n))
    (hP : Plo + 2 ^ 256 * p8 = Mlo + Mhi * (2 ^ 256 - n)) (hR : R = Plo + p8 * (2 ^ 256 - n)) :
    R < 2 * n ∧ R % n = (Lo + 2 ^ 256 * Hi) % n := by
  have e1 : Lo + 2 ^ 256 * Hi = R + (Hi + Mhi + p8) * n := by
    rw [n_lit] at *
    omega
  refine ⟨?_, by rw [e1, Nat.add_mul_mod_self_right]⟩
  rw [n_lit] at *
  omega

theorem m_arith {Lo Hi Mlo Mhi m12 r : ℕ} (hLo : Lo < 2 ^ 256) (hHi : Hi < 2 ^ 256)
    (hM : Mlo + 2 ^ 256 * Mhi = Lo + Hi * (2 ^ 256 - n)) (h : Mhi = r + 2 ^ 128 * m12) :
    m12 ≤ 1 ∧ Mhi ≤ 2 ^ 256 - n := by
  rw [n_lit] at *
  omega

theorem p_arith {Mlo Mhi Plo p8 : ℕ} (hMlo : Mlo < 2 ^ 256) (h : Mhi ≤ 2 ^ 256 - n)
    (hP : Plo + 2 ^ 256 * p8 = Mlo + Mhi * (2 ^ 256 - n)) : p8 ≤ 2 := by
  rw [n_lit] at *
  omega

/-- `secp256k1_scalar_reduce_512` reduces every 512-bit number modulo `n`. -/
theorem reduce512_spec {l : List ℕ} (hl : l.length = 16) (hw : ∀ w ∈ l, w < 2 ^ 32) :
    (reduce512 l).Words ∧ (reduce512 l).nat = words32 l % n := by
  obtain ⟨l0, l1, l2, l3, l4, l5, l6, l7, l8, l9, l10, l11, l12, l13, l14, l15, rfl⟩ :
      ∃ l0 l1 l2 l3 l4 l5 l6 l7 l8 l9 l10 l11 l12 l13 l14 l15,
        l = [l0, l1, l2, l3, l4, l5, l6, l7, l8, l9, l10, l11, l12, l13, l14, l15] := by
    iterate 16 rcases l with _ | ⟨_, l⟩; · simp at hl
    rcases l with _ | ⟨_, l⟩
    · exact ⟨_, _, _, _, _, _, _, _, _, _, _, _, _, _, _, _, rfl⟩
    · simp at hl
  have hlo : words32 [l0, l1, l2, l3, l4, l5, l6, l7] < 2 ^ 256 :=
    words32_lt [l0, l1, l2, l3, l4, l5, l6, l7] fun w h => hw w (List.mem_append_left
      [l8, l9, l10, l11, l12, l13, l14, l15] h)
  have hhi : words32 [l8, l9, l10, l11, l12, l13, l14, l15] < 2 ^ 256 :=
    words32_lt [l8, l9, l10, l11, l12, l13, l14, l15] fun w h => hw w (List.mem_append_right
      [l0, l1, l2, l3, l4, l5, l6, l7] h)
  simp only [List.forall_mem_cons, List.not_mem_nil, false_imp_iff, implies_true, and_true] at hw
  obtain ⟨h0, h1, h2, h3, h4, h5, h6, h7, h8, h9, h10, h11, h12, h13, h14, h15⟩ := hw
  obtain ⟨m0, m1, m2, m3, m4, m5, m6, m7, m8, m9, m10, m11, m12, em, a0, a1, a2, a3, a4, a5, a6, a7,
    a8, a9, a10, a11, a12, ea⟩ := reduce512a_spec h0 h1 h2 h3 h4 h5 h6 h7 h8 h9 h10 h11 h12 h13 h14 h15
  have es : ∀ x0 x1 x2 x3 x4 x5 x6 x7 : ℕ, ∀ r, words32 (x0 :: x1 :: x2 :: x3 :: x4 :: x5 :: x6 :: x7 :: r) =
      words32 [x0, x1, x2, x3, x4, x5, x6, x7] + 2 ^ 256 * words32 r := by
    intro x0 x1 x2 x3 x4 x5 x6 x7 r
    exact words32_append [x0, x1, x2, x3, x4, x5, x6, x7] r
  have ll : ∀ x0 x1 x2 x3 x4 x5 x6 x7 : ℕ, x0 < 2 ^ 32 → x1 < 2 ^ 32 → x2 < 2 ^ 32 → x3 < 2 ^ 32 →
      x4 < 2 ^ 32 → x5 < 2 ^ 32 → x6 < 2 ^ 32 → x7 < 2 ^ 32 →
      words32 [x0, x1, x2, x3, x4, x5, x6, x7] < 2 ^ 256 := by
    intro x0 x1 x2 x3 x4 x5 x6 x7 g0 g1 g2 g3 g4 g5 g6 g7
    exact words32_lt [x0, x1, x2, x3, x4, x5, x6, x7] (by
      simp only [List.forall_mem_cons, List.not_mem_nil, false_imp_iff, implies_true, and_true]
      exact ⟨g0, g1, g2, g3, g4, g5, g6, g7⟩)
  rw [es] at ea
  have em12 : words32 [m8, m9, m10, m11, m12] = words32 [m8, m9, m10, m11] + 2 ^ 128 * m12 := by
    have := words32_append [m8, m9, m10, m11] [m12]
    rw [show words32 [m12] = m12 by simp [words32]] at this
    exact this
  obtain ⟨hm, hM⟩ := m_arith hlo hhi ea em12
  obtain ⟨p0, p1, p2, p3, p4, p5, p6, p7, p8, ep, b0, b1, b2, b3, b4, b5, b6, b7, -, eb⟩ :=
    reduce512b_spec a0 a1 a2 a3 a4 a5 a6 a7 a8 a9 a10 a11 a12 hm
  have hMlo := ll _ _ _ _ _ _ _ _ a0 a1 a2 a3 a4 a5 a6 a7
  have hPlo := ll _ _ _ _ _ _ _ _ b0 b1 b2 b3 b4 b5 b6 b7
  rw [es, show words32 [p8] = p8 by simp [words32]] at eb
  have hp := p_arith hMlo hM eb
  obtain ⟨cw, ec⟩ := reduce512c_spec b0 b1 b2 b3 b4 b5 b6 b7 hp
  obtain ⟨hlt, hmod⟩ := reduce_arith hlo hhi hMlo hPlo ea eb ec
  obtain ⟨f1, -, f2, f3⟩ := reduce_final cw hlt
  unfold reduce512
  rw [em, ep]
  generalize reduce512c [p0, p1, p2, p3, p4, p5, p6, p7, p8] = r at *
  have e : u32 (r.2 + bit r.1.checkOverflow) = r.2 + bit r.1.checkOverflow :=
    Nat.mod_eq_of_lt (lt_of_le_of_lt f1 (by decide))
  simp only [e]
  exact ⟨f2, by rw [f3, hmod, es l0 l1 l2 l3 l4 l5 l6 l7 [l8, l9, l10, l11, l12, l13, l14, l15]]⟩

theorem addRaw_spec {a b : Sc8} (ha : a.Words) (hb : b.Words) :
    (addRaw a b).1.Words ∧ (addRaw a b).1.nat + (addRaw a b).2 * 2 ^ 256 = a.nat + b.nat := by
  obtain ⟨a0, a1, a2, a3, a4, a5, a6, a7⟩ := ha
  obtain ⟨b0, b1, b2, b3, b4, b5, b6, b7⟩ := hb
  obtain ⟨hw, he⟩ := chain_spec (x0 := a.d0 + b.d0) (x1 := a.d1 + b.d1) (x2 := a.d2 + b.d2)
    (x3 := a.d3 + b.d3) (x4 := a.d4 + b.d4) (x5 := a.d5 + b.d5) (x6 := a.d6 + b.d6)
    (x7 := a.d7 + b.d7) (by omega) (by omega) (by omega) (by omega) (by omega) (by omega) (by omega)
    (by omega)
  refine ⟨hw, he.trans ?_⟩
  unfold nat
  ring

theorem add_spec {a b : Sc8} (ha : a.Words) (hb : b.Words) (hla : a.nat < n) (hlb : b.nat < n) :
    (add a b).1.Words ∧ (add a b).1.nat = (a.nat + b.nat) % n ∧
      (add a b).2 = if n ≤ a.nat + b.nat then 1 else 0 := by
  obtain ⟨hw, hv⟩ := addRaw_spec ha hb
  obtain ⟨h1, h2, h3, h4⟩ := reduce_final (r := (addRaw a b).1) (c := (addRaw a b).2) hw (by omega)
  unfold add
  simp only
  refine ⟨h3, by rw [h4, hv], ?_⟩
  rw [hv] at h2
  split_ifs with h
  · exact h2.2 h
  · have := mt h2.1 h
    omega

theorem isZero_iff {a : Sc8} : a.isZero = true ↔ a.nat = 0 := by
  unfold isZero nat
  rw [decide_eq_true_eq, or_eq_zero8]
  omega

theorem isZero_false {a : Sc8} : a.isZero = false ↔ a.nat ≠ 0 := by
  rw [Ne, ← isZero_iff, Bool.not_eq_true]

theorem isOne_iff {a : Sc8} : a.isOne = true ↔ a.nat = 1 ∧ a.d1 = 0 ∧ a.d2 = 0 ∧ a.d3 = 0 ∧
    a.d4 = 0 ∧ a.d5 = 0 ∧ a.d6 = 0 ∧ a.d7 = 0 := by
  unfold isOne nat
  rw [decide_eq_true_eq, or_eq_zero8, xor_zero_iff]
  omega

theorem eq_iff {a b : Sc8} : eq a b = true ↔ a = b := by
  unfold eq
  rw [decide_eq_true_eq, or_eq_zero8, xor_zero_iff, xor_zero_iff, xor_zero_iff, xor_zero_iff,
    xor_zero_iff, xor_zero_iff, xor_zero_iff, xor_zero_iff, Sc8.ext_iff]

theorem nat_inj {a b : Sc8} (ha : a.Words) (hb : b.Words) (h : a.nat = b.nat) : a = b := by
  obtain ⟨a0, a1, a2, a3, a4, a5, a6, a7⟩ := ha
  obtain ⟨b0, b1, b2, b3, b4, b5, b6, b7⟩ := hb
  rw [nat_horner, nat_horner] at h
  have st : ∀ x y X Y : ℕ, x < 2 ^ 32 → y < 2 ^ 32 → x + 2 ^ 32 * X = y + 2 ^ 32 * Y →
      x = y ∧ X = Y := by
    intro x y X Y hx hy h
    omega
  obtain ⟨e0, h⟩ := st _ _ _ _ a0 b0 h
  obtain ⟨e1, h⟩ := st _ _ _ _ a1 b1 h
  obtain ⟨e2, h⟩ := st _ _ _ _ a2 b2 h
  obtain ⟨e3, h⟩ := st _ _ _ _ a3 b3 h
  obtain ⟨e4, h⟩ := st _ _ _ _ a4 b4 h
  obtain ⟨e5, h⟩ := st _ _ _ _ a5 b5 h
  obtain ⟨e6, h⟩ := st _ _ _ _ a6 b6 h
  obtain ⟨e7, h⟩ := st _ _ _ _ a7 b7 h
  exact Sc8.ext e0 e1 e2 e3 e4 e5 e6 e7

theorem isEven_iff {a : Sc8} : a.isEven = true ↔ a.nat % 2 = 0 := by
  unfold isEven nat
  rw [decide_eq_true_eq, land_one']
  omega

/-- The last word, where equality does not count as larger. -/
theorem cmp_last' {no yes : Bool} {H M d N : ℕ} (hd : d < 2 ^ 32) (hN : N < 2 ^ 32)
    (h1 : no = true ↔ H < M) (h2 : yes = true ↔ M < H) :
    (yes || (decide (d > N) && !no)) = true ↔ N + 2 ^ 32 * M < d + 2 ^ 32 * H := by
  cases no <;> cases yes <;> simp at h1 h2 ⊢ <;> omega

theorem isHigh_iff {a : Sc8} (ha : a.Words) : a.isHigh = true ↔ n / 2 < a.nat := by
  obtain ⟨h0, h1, h2, h3, h4, h5, h6, h7⟩ := ha
  rw [nat_horner]
  have hnf : ∀ x : Bool, (x && !false) = x := by simp
  have hfo : ∀ x : Bool, (false || x) = x := by simp
  have c7 := cmp_step (no := false) (yes := false) (H := 0) (M := 0) (N := s8NH7) h7 (by decide)
    (by simp) (by simp)
  have c6 := cmp_top' h6 c7.1 c7.2
  have c5 := cmp_top' h5 c6.1 c6.2
  have c4 := cmp_top' h4 c5.1 c5.2
  have c3 := cmp_step (N := s8NH3) h3 (by decide) c4.1 c4.2
  have c2 := cmp_step (N := s8NH2) h2 (by decide) c3.1 c3.2
  have c1 := cmp_step (N := s8NH1) h1 (by decide) c2.1 c2.2
  have c0 := cmp_last' (N := s8NH0) h0 (by decide) c1.1 c1.2
  have key : a.isHigh = true ↔ s8NH0 + 2 ^ 32 * (s8NH1 + 2 ^ 32 * (s8NH2 + 2 ^ 32 *
    (s8NH3 + 2 ^ 32 * (0xFFFFFFFF + 2 ^ 32 * (0xFFFFFFFF + 2 ^ 32 * (0xFFFFFFFF + 2 ^ 32 *
    (s8NH7 + 2 ^ 32 * 0))))))) < a.d0 + 2 ^ 32 * (a.d1 + 2 ^ 32 * (a.d2 + 2 ^ 32 *
    (a.d3 + 2 ^ 32 * (a.d4 + 2 ^ 32 * (a.d5 + 2 ^ 32 * (a.d6 + 2 ^ 32 * (a.d7 + 2 ^ 32 * 0))))))) := by
    rw [← c0]
    unfold isHigh
    dsimp only
    rw [show s8NH6 = 0xFFFFFFFF from rfl, show s8NH5 = 0xFFFFFFFF from rfl,
      show s8NH4 = 0xFFFFFFFF from rfl]
    simp only [hnf, hfo]
  rw [key]
  have : s8NH0 + 2 ^ 32 * (s8NH1 + 2 ^ 32 * (s8NH2 + 2 ^ 32 *
    (s8NH3 + 2 ^ 32 * (0xFFFFFFFF + 2 ^ 32 * (0xFFFFFFFF + 2 ^ 32 * (0xFFFFFFFF + 2 ^ 32 *
    (s8NH7 + 2 ^ 32 * 0))))))) = n / 2 := by rw [n_lit]; decide
  rw [this]

theorem negate_zero {a : Sc8} (h : a.nat = 0) : a.negate = ⟨0, 0, 0, 0, 0, 0, 0, 0⟩ := by
  unfold negate
  rw [isZero_iff.2 h, show u32 (0xFFFFFFFF * bit (!true)) = 0 by decide]
  exact chain_zero _ _ _ _ _ _ _ _

theorem negate_spec {a : Sc8} (ha : a.Words) (h : a.nat ≠ 0) (hl : a.nat < n) :
    a.negate.Words ∧ a.negate.nat = n - a.nat := by
  obtain ⟨a0, a1, a2, a3, a4, a5, a6, a7⟩ := ha
  have hz := isZero_false.2 h
  have hk : ∀ x y : ℕ, x < 2 ^ 32 → y < 2 ^ 32 → not32 x + y + 1 < 2 ^ 63 := by
    intro x y hx hy
    unfold not32
    omega
  have hk' : ∀ x y : ℕ, x < 2 ^ 32 → y < 2 ^ 32 → not32 x + y < 2 ^ 63 := by
    intro x y hx hy
    unfold not32
    omega
  obtain ⟨hw, he⟩ := chain_spec (hk _ s8N0 a0 (by decide)) (hk' _ s8N1 a1 (by decide))
    (hk' _ s8N2 a2 (by decide)) (hk' _ s8N3 a3 (by decide)) (hk' _ s8N4 a4 (by decide))
    (hk' _ s8N5 a5 (by decide)) (hk' _ s8N6 a6 (by decide)) (hk' _ s8N7 a7 (by decide))
  have e : a.negate = (chain 0xFFFFFFFF (not32 a.d0 + s8N0 + 1) (not32 a.d1 + s8N1)
      (not32 a.d2 + s8N2) (not32 a.d3 + s8N3) (not32 a.d4 + s8N4) (not32 a.d5 + s8N5)
      (not32 a.d6 + s8N6) (not32 a.d7 + s8N7)).1 := by
    unfold negate
    rw [hz, show u32 (0xFFFFFFFF * bit (!false)) = 0xFFFFFFFF by decide]
  rw [e]
  refine ⟨hw, ?_⟩
  have hlt := hw.lt
  clear e hz hw
  generalize chain _ _ _ _ _ _ _ _ _ = c at *
  have key : c.1.nat + c.2 * 2 ^ 256 = 2 ^ 256 + n - a.nat := by
    rw [he, n_lit]
    unfold not32 nat s8N0 s8N1 s8N2 s8N3 s8N4 s8N5 s8N6 s8N7
    clear * - a0 a1 a2 a3 a4 a5 a6 a7
    omega
  clear he
  rw [n_lit] at *
  clear * - key hlt h hl
  omega

theorem condNegate_true (r : Sc8) (hr : r.Words) : r.condNegate true = (r.negate, -1) := by
  obtain ⟨a0, a1, a2, a3, a4, a5, a6, a7⟩ := hr
  unfold condNegate negate
  have hm : (2 ^ 32 - bit true) % 2 ^ 32 = 2 ^ 32 - 1 := by decide
  rw [hm]
  dsimp only
  rw [xor_ones32 a0, xor_ones32 a1, xor_ones32 a2, xor_ones32 a3, xor_ones32 a4, xor_ones32 a5,
    xor_ones32 a6, xor_ones32 a7,
    land_ones32 (show u32 (s8N0 + 1) < 2 ^ 32 by decide), land_ones32 (show s8N1 < 2 ^ 32 by decide),
    land_ones32 (show s8N2 < 2 ^ 32 by decide), land_ones32 (show s8N3 < 2 ^ 32 by decide),
    land_ones32 (show s8N4 < 2 ^ 32 by decide), land_ones32 (show s8N5 < 2 ^ 32 by decide),
    land_ones32 (show s8N6 < 2 ^ 32 by decide), land_ones32 (show s8N7 < 2 ^ 32 by decide)]
  rw [show u32 (s8N0 + 1) = s8N0 + 1 by decide, if_neg (by decide)]
  simp only [not32, Nat.add_assoc]

theorem condNegate_false (r : Sc8) (hr : r.Words) : r.condNegate false = (r, 1) := by
  obtain ⟨a0, a1, a2, a3, a4, a5, a6, a7⟩ := id hr
  unfold condNegate
  have hm : (2 ^ 32 - bit false) % 2 ^ 32 = 0 := by decide
  rw [hm]
  simp only [Nat.xor_zero, Nat.and_zero, Nat.add_zero, if_true, Prod.mk.injEq, and_true]
  cases hz : r.isZero
  · rw [show u32 (0xFFFFFFFF * bit (!false)) = 0xFFFFFFFF by decide]
    obtain ⟨hw, he⟩ := chain_spec (x0 := r.d0) (x1 := r.d1) (x2 := r.d2) (x3 := r.d3) (x4 := r.d4)
      (x5 := r.d5) (x6 := r.d6) (x7 := r.d7) (by omega) (by omega) (by omega) (by omega) (by omega)
      (by omega) (by omega) (by omega)
    refine nat_inj hw hr ?_
    have h1 := hr.lt
    have h2 := hw.lt
    generalize chain _ _ _ _ _ _ _ _ _ = c at *
    have he' : c.1.nat + c.2 * 2 ^ 256 = r.nat := he
    omega
  · rw [show u32 (0xFFFFFFFF * bit (!true)) = 0 by decide, chain_zero]
    have hz' := hz
    unfold isZero at hz'
    rw [decide_eq_true_eq, or_eq_zero8] at hz'
    obtain ⟨z0, z1, z2, z3, z4, z5, z6, z7⟩ := hz'
    exact Sc8.ext z0.symm z1.symm z2.symm z3.symm z4.symm z5.symm z6.symm z7.symm

theorem half_arith (d0 d1 d2 d3 d4 d5 d6 d7 : ℕ) :
    2 * ((d0 / 2 + d1 % 2 * 2 ^ 31) + (d1 / 2 + d2 % 2 * 2 ^ 31) * 2 ^ 32 +
      (d2 / 2 + d3 % 2 * 2 ^ 31) * 2 ^ 64 + (d3 / 2 + d4 % 2 * 2 ^ 31) * 2 ^ 96 +
      (d4 / 2 + d5 % 2 * 2 ^ 31) * 2 ^ 128 + (d5 / 2 + d6 % 2 * 2 ^ 31) * 2 ^ 160 +
      (d6 / 2 + d7 % 2 * 2 ^ 31) * 2 ^ 192 + (d7 / 2) * 2 ^ 224) + d0 % 2 =
    d0 + d1 * 2 ^ 32 + d2 * 2 ^ 64 + d3 * 2 ^ 96 + d4 * 2 ^ 128 + d5 * 2 ^ 160 + d6 * 2 ^ 192 +
      d7 * 2 ^ 224 := by
  have h := fun d : ℕ => Nat.div_add_mod d 2
  conv_rhs => rw [← h d0, ← h d1, ← h d2, ← h d3, ← h d4, ← h d5, ← h d6, ← h d7]
  ring

theorem half_word (x y : ℕ) (hx : x < 2 ^ 32) :
    (x >>> 1) ||| u32 (y <<< 31) = x / 2 + (y % 2) * 2 ^ 31 := by
  have e1 : u32 (y <<< 31) = (y % 2) <<< 31 := by
    unfold u32
    rw [Nat.shiftLeft_eq, Nat.shiftLeft_eq]
    omega
  rw [e1, Nat.shiftRight_eq_div_pow, or_shl (by omega)]

theorem half_mask (d : ℕ) :
    (2 ^ 32 - (d &&& 1)) % 2 ^ 32 = if d % 2 = 0 then 0 else 2 ^ 32 - 1 := by
  rw [land_one']
  split_ifs with h
  · rw [h]
    decide
  · rw [show d % 2 = 1 by omega]
    decide

theorem half_and (o x : ℕ) (hx : x < 2 ^ 32) :
    x &&& (if o = 0 then 0 else 2 ^ 32 - 1) = (if o = 0 then 0 else x) := by
  split_ifs
  · exact Nat.and_zero _
  · exact land_ones32 hx

theorem half_lt (o x y z : ℕ) (hx : x < 2 ^ 32) (hz : z < 2 ^ 32) :
    x / 2 + (y % 2) * 2 ^ 31 + (if o = 0 then 0 else z) < 2 ^ 63 := by
  split_ifs <;> omega

theorem half_lt' (o x z : ℕ) (hx : x < 2 ^ 32) (hz : z < 2 ^ 32) :
    x / 2 + (if o = 0 then 0 else z) < 2 ^ 63 := by
  split_ifs <;> omega

theorem half_eq {a : Sc8} (ha : a.Words) : a.half = (chain 0xFFFFFFFF
      (a.d0 / 2 + a.d1 % 2 * 2 ^ 31 + (if a.d0 % 2 = 0 then 0 else 0x681B20A1))
      (a.d1 / 2 + a.d2 % 2 * 2 ^ 31 + (if a.d0 % 2 = 0 then 0 else 0xDFE92F46))
      (a.d2 / 2 + a.d3 % 2 * 2 ^ 31 + (if a.d0 % 2 = 0 then 0 else 0x57A4501D))
      (a.d3 / 2 + a.d4 % 2 * 2 ^ 31 + (if a.d0 % 2 = 0 then 0 else 0x5D576E73))
      (a.d4 / 2 + a.d5 % 2 * 2 ^ 31 + (if a.d0 % 2 = 0 then 0 else 0xFFFFFFFF))
      (a.d5 / 2 + a.d6 % 2 * 2 ^ 31 + (if a.d0 % 2 = 0 then 0 else 0xFFFFFFFF))
      (a.d6 / 2 + a.d7 % 2 * 2 ^ 31 + (if a.d0 % 2 = 0 then 0 else 0xFFFFFFFF))
      (a.d7 / 2 + (if a.d0 % 2 = 0 then 0 else 0x7FFFFFFF))).1 := by
  obtain ⟨a0, a1, a2, a3, a4, a5, a6, a7⟩ := ha
  have c0 : u32 (s8NH0 + 1) = 0x681B20A1 := by decide
  have c1 : s8NH1 = 0xDFE92F46 := rfl
  have c2 : s8NH2 = 0x57A4501D := rfl
  have c3 : s8NH3 = 0x5D576E73 := rfl
  have c4 : s8NH4 = 0xFFFFFFFF := rfl
  have c5 : s8NH5 = 0xFFFFFFFF := rfl
  have c6 : s8NH6 = 0xFFFFFFFF := rfl
  have c7 : s8NH7 = 0x7FFFFFFF := rfl
  unfold half
  simp only
  rw [half_mask, half_word _ _ a0, half_word _ _ a1, half_word _ _ a2, half_word _ _ a3,
    half_word _ _ a4, half_word _ _ a5, half_word _ _ a6, Nat.shiftRight_eq_div_pow, pow_one,
    c0, c1, c2, c3, c4, c5, c6, c7, half_and _ 0x681B20A1 (by decide),
    half_and _ 0xDFE92F46 (by decide), half_and _ 0x57A4501D (by decide),
    half_and _ 0x5D576E73 (by decide), half_and _ 0xFFFFFFFF (by decide),
    half_and _ 0x7FFFFFFF (by decide)]

theorem half_fin {N c m o : ℕ} {h : ℕ} (hm : m = 2 * h + o) (hl : m < n) (hN : N < 2 ^ 256)
    (ho : o < 2) (he : N + c * 2 ^ 256 = h + if o = 0 then 0 else (n + 1) / 2) :
    N = if o = 0 then m / 2 else (m + n) / 2 := by
  rw [n_lit] at *
  split_ifs at he ⊢ with h0 <;> omega

theorem sum_add (x0 x1 x2 x3 x4 x5 x6 x7 c0 c1 c2 c3 c4 c5 c6 c7 : ℕ) :
    (x0 + c0) + (x1 + c1) * 2 ^ 32 + (x2 + c2) * 2 ^ 64 + (x3 + c3) * 2 ^ 96 + (x4 + c4) * 2 ^ 128 +
    (x5 + c5) * 2 ^ 160 + (x6 + c6) * 2 ^ 192 + (x7 + c7) * 2 ^ 224 =
    (x0 + x1 * 2 ^ 32 + x2 * 2 ^ 64 + x3 * 2 ^ 96 + x4 * 2 ^ 128 + x5 * 2 ^ 160 + x6 * 2 ^ 192 +
      x7 * 2 ^ 224) + (c0 + c1 * 2 ^ 32 + c2 * 2 ^ 64 + c3 * 2 ^ 96 + c4 * 2 ^ 128 + c5 * 2 ^ 160 +
      c6 * 2 ^ 192 + c7 * 2 ^ 224) := by
  ring

theorem half_const : 0x681B20A1 + 0xDFE92F46 * 2 ^ 32 + 0x57A4501D * 2 ^ 64 + 0x5D576E73 * 2 ^ 96 +
    0xFFFFFFFF * 2 ^ 128 + 0xFFFFFFFF * 2 ^ 160 + 0xFFFFFFFF * 2 ^ 192 + 0x7FFFFFFF * 2 ^ 224 =
    (n + 1) / 2 := by
  rw [n_lit]
  decide

theorem half_sum (o x0 x1 x2 x3 x4 x5 x6 x7 : ℕ) :
    (x0 + (if o = 0 then 0 else 0x681B20A1)) + (x1 + (if o = 0 then 0 else 0xDFE92F46)) * 2 ^ 32 +
    (x2 + (if o = 0 then 0 else 0x57A4501D)) * 2 ^ 64 +
    (x3 + (if o = 0 then 0 else 0x5D576E73)) * 2 ^ 96 +
    (x4 + (if o = 0 then 0 else 0xFFFFFFFF)) * 2 ^ 128 +
    (x5 + (if o = 0 then 0 else 0xFFFFFFFF)) * 2 ^ 160 +
    (x6 + (if o = 0 then 0 else 0xFFFFFFFF)) * 2 ^ 192 +
    (x7 + (if o = 0 then 0 else 0x7FFFFFFF)) * 2 ^ 224 =
    (x0 + x1 * 2 ^ 32 + x2 * 2 ^ 64 + x3 * 2 ^ 96 + x4 * 2 ^ 128 + x5 * 2 ^ 160 + x6 * 2 ^ 192 +
      x7 * 2 ^ 224) + if o = 0 then 0 else (n + 1) / 2 := by
  rw [sum_add]
  congr 1
  split_ifs
  · decide
  · exact half_const

theorem half_spec {a : Sc8} (ha : a.Words) (hl : a.nat < n) :
    a.half.Words ∧ a.half.nat = if a.nat % 2 = 0 then a.nat / 2 else (a.nat + n) / 2 := by
  have e := half_eq ha
  obtain ⟨a0, a1, a2, a3, a4, a5, a6, a7⟩ := ha
  have hm : a.nat % 2 = a.d0 % 2 := by unfold nat; omega
  rw [hm, e]
  generalize ho : a.d0 % 2 = o at *
  obtain ⟨hw, he⟩ := chain_spec (half_lt o a.d0 a.d1 0x681B20A1 a0 (by decide))
    (half_lt o a.d1 a.d2 0xDFE92F46 a1 (by decide)) (half_lt o a.d2 a.d3 0x57A4501D a2 (by decide))
    (half_lt o a.d3 a.d4 0x5D576E73 a3 (by decide)) (half_lt o a.d4 a.d5 0xFFFFFFFF a4 (by decide))
    (half_lt o a.d5 a.d6 0xFFFFFFFF a5 (by decide)) (half_lt o a.d6 a.d7 0xFFFFFFFF a6 (by decide))
    (half_lt' o a.d7 0x7FFFFFFF a7 (by decide))
  refine ⟨hw, half_fin ?_ hl hw.lt (by omega) (he.trans (half_sum _ _ _ _ _ _ _ _ _))⟩
  rw [← ho]
  exact (half_arith a.d0 a.d1 a.d2 a.d3 a.d4 a.d5 a.d6 a.d7).symm

theorem cmov_eq {r a : Sc8} (hr : r.Words) (ha : a.Words) (flag : Bool) :
    cmov r a flag = if flag then a else r := by
  obtain ⟨r0, r1, r2, r3, r4, r5, r6, r7⟩ := hr
  obtain ⟨a0, a1, a2, a3, a4, a5, a6, a7⟩ := ha
  unfold cmov
  cases flag
  · have h0 : u32 (bit false + (2 ^ 32 - 1)) = 2 ^ 32 - 1 := by decide
    have h1 : not32 (2 ^ 32 - 1) = 0 := by decide
    rw [h0]
    simp only [h1, Nat.and_zero, Nat.or_zero]
    rw [land_ones32 r0, land_ones32 r1, land_ones32 r2, land_ones32 r3, land_ones32 r4,
      land_ones32 r5, land_ones32 r6, land_ones32 r7]
    rfl
  · have h0 : u32 (bit true + (2 ^ 32 - 1)) = 0 := by decide
    have h1 : not32 0 = 2 ^ 32 - 1 := by decide
    rw [h0]
    simp only [h1, Nat.and_zero, Nat.zero_or]
    rw [land_ones32 a0, land_ones32 a1, land_ones32 a2, land_ones32 a3, land_ones32 a4,
      land_ones32 a5, land_ones32 a6, land_ones32 a7]
    rfl

theorem bitWord_eq (b i : ℕ) : bitWord b i = if b / 2 ^ 5 = i then 2 ^ (b % 2 ^ 5) else 0 := by
  have hpow : 2 ^ (b % 2 ^ 5) < 2 ^ 32 := Nat.pow_lt_pow_right (by decide) (by omega)
  unfold bitWord u32
  rw [Nat.shiftLeft_eq, bit_eq, land_1f, Nat.shiftRight_eq_div_pow]
  by_cases h : b / 2 ^ 5 = i
  · simp only [h, decide_true, if_true, Nat.one_mul, Nat.mod_eq_of_lt hpow]
  · simp only [h, decide_false, Bool.false_eq_true, if_false, Nat.zero_mul, Nat.zero_mod]

theorem bitWord_lt (b i : ℕ) : bitWord b i < 2 ^ 32 := Nat.mod_lt _ (by decide)

theorem caddChain {r : Sc8} (hr : r.Words) (b : ℕ) :
    (chain 0xFFFFFFFF (r.d0 + bitWord b 0) (r.d1 + bitWord b 1) (r.d2 + bitWord b 2)
      (r.d3 + bitWord b 3) (r.d4 + bitWord b 4) (r.d5 + bitWord b 5) (r.d6 + bitWord b 6)
      (r.d7 + bitWord b 7)).1.Words ∧
    (r.nat + (if b < 256 then 2 ^ b else 0) < 2 ^ 256 →
    (chain 0xFFFFFFFF (r.d0 + bitWord b 0) (r.d1 + bitWord b 1) (r.d2 + bitWord b 2)
      (r.d3 + bitWord b 3) (r.d4 + bitWord b 4) (r.d5 + bitWord b 5) (r.d6 + bitWord b 6)
      (r.d7 + bitWord b 7)).1.nat = r.nat + (if b < 256 then 2 ^ b else 0)) := by
  obtain ⟨a0, a1, a2, a3, a4, a5, a6, a7⟩ := hr
  have hs : ∀ x i : ℕ, x < 2 ^ 32 → x + bitWord b i < 2 ^ 63 := by
    intro x i hx
    have := bitWord_lt b i
    omega
  obtain ⟨hw, he⟩ := chain_spec (hs _ 0 a0) (hs _ 1 a1) (hs _ 2 a2) (hs _ 3 a3) (hs _ 4 a4) (hs _ 5 a5)
    (hs _ 6 a6) (hs _ 7 a7)
  have hsum : bitWord b 0 + bitWord b 1 * 2 ^ 32 + bitWord b 2 * 2 ^ 64 + bitWord b 3 * 2 ^ 96 +
      bitWord b 4 * 2 ^ 128 + bitWord b 5 * 2 ^ 160 + bitWord b 6 * 2 ^ 192 + bitWord b 7 * 2 ^ 224 =
      if b < 256 then 2 ^ b else 0 := by
    simp only [bitWord_eq]
    have hb' : 2 ^ b = 2 ^ (b % 2 ^ 5) * 2 ^ (32 * (b / 2 ^ 5)) := by
      rw [← pow_add]
      congr 1
      omega
    by_cases hb : b < 256
    · rw [if_pos hb, hb']
      have : b / 2 ^ 5 < 8 := by omega
      obtain ⟨q, hq⟩ : ∃ q, q = b / 2 ^ 5 := ⟨_, rfl⟩
      rw [← hq] at this ⊢
      interval_cases q <;> norm_num
    · rw [if_neg hb]
      have : 8 ≤ b / 2 ^ 5 := by omega
      rw [if_neg (by omega), if_neg (by omega), if_neg (by omega), if_neg (by omega),
        if_neg (by omega), if_neg (by omega), if_neg (by omega), if_neg (by omega)]
      norm_num
  refine ⟨hw, fun h => ?_⟩
  have hlt := hw.lt
  generalize chain _ _ _ _ _ _ _ _ _ = c at *
  have key : c.1.nat + c.2 * 2 ^ 256 = r.nat + (if b < 256 then 2 ^ b else 0) := by
    rw [he, ← hsum]
    unfold nat
    ring
  generalize (if b < 256 then 2 ^ b else 0) = z at *
  clear * - key h hlt
  omega

theorem caddBit_noop {r : Sc8} (hr : r.Words) {b : ℕ} (hb : b < 256) : r.caddBit b false = r := by
  unfold caddBit
  have h0 : ((bit false + 2 ^ 32 - 1) % 2 ^ 32) &&& 0x100 = 256 := by decide
  rw [h0]
  obtain ⟨h1, h2⟩ := caddChain hr (b + 256)
  rw [if_neg (by omega), Nat.add_zero] at h2
  exact nat_inj h1 hr (h2 hr.lt)

theorem caddBit_spec {r : Sc8} (hr : r.Words) {b : ℕ} (hb : b < 256)
    (hs : r.nat + 2 ^ b < 2 ^ 256) :
    (r.caddBit b true).Words ∧ (r.caddBit b true).nat = r.nat + 2 ^ b := by
  unfold caddBit
  have h0 : ((bit true + 2 ^ 32 - 1) % 2 ^ 32) &&& 0x100 = 0 := by decide
  rw [h0, Nat.add_zero]
  obtain ⟨h1, h2⟩ := caddChain hr b
  rw [if_pos hb] at h2
  exact ⟨h1, h2 hs⟩

theorem split128_spec {k : Sc8} (hk : k.Words) :
    k.split128.1.Words ∧ k.split128.2.Words ∧ k.split128.1.nat = k.nat % 2 ^ 128 ∧
      k.split128.2.nat = k.nat / 2 ^ 128 := by
  obtain ⟨a0, a1, a2, a3, a4, a5, a6, a7⟩ := hk
  unfold split128 nat
  have z : 0 < 2 ^ 32 := by decide
  refine ⟨⟨a0, a1, a2, a3, z, z, z, z⟩, ⟨a4, a5, a6, a7, z, z, z, z⟩, ?_, ?_⟩ <;> dsimp only <;> omega

theorem const_spec {v : ℕ} (hv : v < 2 ^ 256) : (const v).Words ∧ (const v).nat = v := by
  unfold const nat
  have z : 0 < 2 ^ 32 := by decide
  refine ⟨⟨Nat.mod_lt _ z, Nat.mod_lt _ z, Nat.mod_lt _ z, Nat.mod_lt _ z, Nat.mod_lt _ z,
    Nat.mod_lt _ z, Nat.mod_lt _ z, Nat.mod_lt _ z⟩, ?_⟩
  dsimp only
  omega

end Model.Sc8
end Secp
