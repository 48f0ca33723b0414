import Verif.Model.VerifyModinvVar
import Verif.Proof.VerifyModinvAll
import Verif.Proof.Modinv64Var

/-!
Helpers for the checks of a `VERIFY` build inside the variable-time modular inverse.
-/

namespace Secp.Model.Verify
open Secp Secp.Divstep

/-! ## comparisons with fewer limbs -/

/-- Five limbs, the missing ones zero. -/
def padS (A : List ℤ) : S62 := ⟨A.getD 0 0, A.getD 1 0, A.getD 2 0, A.getD 3 0, A.getD 4 0⟩

theorem padS_int {A : List ℤ} (h : A.length ≤ 5) : (padS A).int = limbsInt A := by
  match A, h with
  | [], _ => simp [padS, S62.int, limbsInt]
  | [a], _ => simp [padS, S62.int, limbsInt]
  | [a, b], _ => simp [padS, S62.int, limbsInt]; ring
  | [a, b, c], _ => simp [padS, S62.int, limbsInt]; ring
  | [a, b, c, d], _ => simp [padS, S62.int, limbsInt]; ring
  | [a, b, c, d, e], _ => simp [padS, S62.int, limbsInt]; ring
  | a :: b :: c :: d :: e :: f :: l, h => simp only [List.length_cons] at h; omega

theorem padS_small {A : List ℤ} (h : SmallL A) : (padS A).Small := by
  have key : ∀ i, |A.getD i 0| ≤ 2 ^ 62 := by
    intro i
    rw [List.getD_eq_getElem?_getD]
    by_cases hi : i < A.length
    · rw [List.getElem?_eq_getElem hi]
      exact h _ (List.getElem_mem hi)
    · rw [List.getElem?_eq_none (by omega)]
      norm_num
  exact ⟨key 0, key 1, key 2, key 3, key 4⟩

theorem accumIf_ok {A B : List ℤ} {i : ℕ} {c k : ℤ} (hc : |c| ≤ 2 ^ 64) (hx : |A.getD i 0 * k| ≤ 2 ^ 63) :
    accumIf (decide (i < A.length)) c ((A ++ B).getD i 0) k = some (c + A.getD i 0 * k) ∧
    i128AccumMul c (A.getD i 0) k = some (c + A.getD i 0 * k) := by
  have h2 : i128AccumMul c (A.getD i 0) k = some (c + A.getD i 0 * k) :=
    accumMul_some (hx.trans (by norm_num)) (hc.trans (by norm_num))
  refine ⟨?_, h2⟩
  unfold accumIf
  by_cases hi : i < A.length
  · rw [decide_eq_true hi, if_pos rfl, ← h2]
    congr 1
    rw [List.getD_eq_getElem?_getD, List.getD_eq_getElem?_getD, List.getElem?_append_left hi]
  · rw [decide_eq_false hi, if_neg (by simp)]
    rw [List.getD_eq_getElem?_getD, List.getElem?_eq_none (by omega)]
    simp

theorem bind_both {α β : Type} {o o' : Option α} {a : α} {k k' : α → Option β} (h : o = some a) (h' : o' = some a)
    (hk : k a = k' a) : (o >>= k) = (o' >>= k') := by
  rw [h, h']
  exact hk

theorem mul62Len_ok {A B : List ℤ} {k : ℤ} (ha : (padS A).Small) (hk : |k| ≤ 2)
    (hint : |(padS A).int| ≤ 2 ^ 300) :
    mul62Len (A ++ B) A.length k = mul62 (padS A) k := by
  obtain ⟨r, hr, -, -⟩ := mul62_ok ha hk hint
  have b0 := scale_le ha.v0 hk
  have b1 := scale_le ha.v1 hk
  have b2 := scale_le ha.v2 hk
  have b3 := scale_le ha.v3 hk
  have b4 := scale_le ha.v4 hk
  unfold padS at b0 b1 b2 b3 b4
  dsimp only at b0 b1 b2 b3 b4
  have sh : ∀ {c x : ℤ}, |c| ≤ 2 ^ 64 → |x| ≤ 2 ^ 63 → |i128Rshift62 (c + x)| ≤ 2 ^ 64 := by
    intro c x h1 h2
    unfold i128Rshift62
    rw [abs_le] at *
    omega
  have s0 := sh (c := 0) (by norm_num) b0
  have s1 := sh s0 b1
  have s2 := sh s1 b2
  have s3 := sh s2 b3
  obtain ⟨p0, q0⟩ := accumIf_ok (B := B) (c := 0) (by norm_num) b0
  obtain ⟨p1, q1⟩ := accumIf_ok (B := B) s0 b1
  obtain ⟨p2, q2⟩ := accumIf_ok (B := B) s1 b2
  obtain ⟨p3, q3⟩ := accumIf_ok (B := B) s2 b3
  obtain ⟨p4, q4⟩ := accumIf_ok (B := B) s3 b4
  unfold mul62Len mul62 padS
  exact bind_both p0 q0 (bind_both p1 q1 (bind_both p2 q2 (bind_both p3 q3 (bind_both p4 q4 rfl))))

theorem mulCmp62Len_ok {A B : List ℤ} {b : S62} {k : ℤ} (ha : (padS A).Small)
    (hint : |(padS A).int| ≤ 2 ^ 300) :
    mulCmp62Len (A ++ B) A.length b k = mulCmp62 (padS A) b k := by
  unfold mulCmp62Len mulCmp62
  rw [mul62Len_ok ha (by norm_num) hint]

theorem fgCheckLen_ok {M : Modinfo} {m : ℤ} (hM : M.Ok m) {A A' B B' : List ℤ} (hl : A.length ≤ 5)
    (hl' : A'.length = A.length) (sf : SmallL A) (sg : SmallL A')
    (f1 : -m < limbsInt A) (f2 : limbsInt A ≤ m) (g1 : -m < limbsInt A') (g2 : limbsInt A' < m) :
    fgCheckLen A.length (A ++ B) (A' ++ B') M = some () := by
  have hm1 := hM.ge
  have hm2 := hM.le
  have pf := padS_small sf
  have pg := padS_small sg
  have ef := padS_int hl
  have eg := padS_int (A := A') (by omega)
  have im : |M.modulus.int| ≤ 2 ^ 300 := by rw [hM.val, abs_le]; constructor <;> omega
  have iA : |(padS A).int| ≤ 2 ^ 300 := by rw [ef, abs_le]; constructor <;> omega
  have iA' : |(padS A').int| ≤ 2 ^ 300 := by rw [eg, abs_le]; constructor <;> omega
  obtain ⟨c1, e1, -, -, h1⟩ := mulCmp62_ok pf hM.small (k := -1) (by norm_num) iA im
  obtain ⟨c2, e2, -, -, h2⟩ := mulCmp62_ok pf hM.small (k := 1) (by norm_num) iA im
  obtain ⟨c3, e3, -, -, h3⟩ := mulCmp62_ok pg hM.small (k := -1) (by norm_num) iA' im
  obtain ⟨c4, e4, h4, -, -⟩ := mulCmp62_ok pg hM.small (k := 1) (by norm_num) iA' im
  rw [hM.val, ef] at h1 h2
  rw [hM.val, eg] at h3 h4
  rw [← mulCmp62Len_ok (B := B) pf iA] at e1 e2
  rw [← mulCmp62Len_ok (B := B') pg iA', hl'] at e3 e4
  unfold fgCheckLen
  refine bind_step e1 (bind_step (check_true ?_) (bind_step e2 (bind_step (check_true ?_)
    (bind_step e3 (bind_step (check_true ?_) (bind_step e4 (check_true ?_)))))))
  · rw [decide_eq_true_eq]; exact h1.mpr (by omega)
  · rw [decide_eq_true_eq]
    by_contra hc
    have := h2.mp (by omega)
    omega
  · rw [decide_eq_true_eq]; exact h3.mpr (by omega)
  · rw [decide_eq_true_eq]; exact h4.mpr (by omega)

theorem finalCheckLen_ok {M : Modinfo} {x d : S62} {A A' B B' : List ℤ} (hl' : A'.length = A.length)
    (sf : (padS A).Small) (sg : (padS A').Small) (iA : |(padS A).int| ≤ 2 ^ 300)
    (iA' : |(padS A').int| ≤ 2 ^ 300) :
    finalCheckLen x d A.length (A ++ B) (A' ++ B') M = finalCheck x d (padS A) (padS A') M := by
  unfold finalCheckLen finalCheck
  rw [mulCmp62Len_ok sf iA, mulCmp62Len_ok sf iA, mulCmp62Len_ok sf iA, ← hl', mulCmp62Len_ok sg iA']

/-! ## the division steps -/

/-- The head of the loop, with two bits more than `shiftZeros_spec`. -/
theorem shiftZerosV_spec {i L : ℕ} (hi : i ≤ 62) (hL : L ≤ i) {s : DivVars} {z f g' u v q r : ℤ}
    (hz : |z| ≤ 2 ^ 30) (h : VRel (i + 2) s ⟨⟨z, f, 2 ^ L * g'⟩, u, v, q, r⟩) :
    ∃ (t : DivVars) (k : ℕ) (g'' : ℤ), shiftZerosV s i = some (t, i - k, k) ∧
      shiftZeros s i = some (t, i - k, k) ∧ L ≤ k ∧ k ≤ i ∧
      g' = 2 ^ (k - L) * g'' ∧ (k < i → g'' % 2 = 1) ∧
      VRel (i - k + 2) t ⟨⟨z - k, f, g''⟩, 2 ^ k * u, 2 ^ k * v, q, r⟩ := by
  obtain ⟨k, e, hk, hd, hodd, hmax⟩ := zeros_spec (g := s.g) hi
  have hLg : 2 ^ L ∣ s.g := by
    have h1 : Cong L s.g (2 ^ L * g') := h.g.mono (by omega)
    unfold Cong at h1
    have h2 : (2 : ℤ) ^ L ∣ s.g := (Int.ModEq.dvd_iff h1).mpr (Dvd.intro _ rfl)
    exact_mod_cast h2
  have hLk := hmax L hL hLg
  obtain ⟨g'', hg''⟩ : ∃ g'', 2 ^ L * g' = 2 ^ k * g'' := by
    have h1 : Cong k s.g (2 ^ L * g') := h.g.mono (by omega)
    unfold Cong at h1
    have h2 : (2 : ℤ) ^ k ∣ s.g := by exact_mod_cast hd
    exact (Int.ModEq.dvd_iff h1).mp h2
  have hg' : g' = 2 ^ (k - L) * g'' := by
    have : (2 : ℤ) ^ L * g' = 2 ^ L * (2 ^ (k - L) * g'') := by
      rw [hg'', ← mul_assoc, ← pow_add, show L + (k - L) = k by omega]
    exact mul_left_cancel₀ (by positivity) this
  have hgc := shr_cong (by omega) h.g hg'' hd
  rw [show i + 2 - k = i - k + 2 by omega] at hgc
  have es : shiftZeros s i = some (⟨s.z - k, s.f, s.g >>> k, u64 (s.u <<< k), u64 (s.v <<< k), s.q, s.r⟩,
      i - k, k) := by
    unfold shiftZeros
    dsimp only
    rw [e, if_pos hk]
    have hz' := h.z
    dsimp only at hz'
    rw [abs_le] at hz
    rw [i64?_some (by omega) (by omega), Option.bind_some]
  have hne : s.g ||| u64 ((2 ^ 64 - 1) <<< i) ≠ 0 := by
    intro h0
    rw [Nat.or_eq_zero_iff] at h0
    have : u64 ((2 ^ 64 - 1) <<< i) ≠ 0 := by
      unfold u64
      clear * - hi
      interval_cases i <;> decide
    exact this h0.2
  refine ⟨_, k, g'', ?_, es, hLk, hk, hg', ?_, ?_⟩
  · unfold shiftZerosV
    exact bind_step (check_true (decide_eq_true hne)) es
  · intro hlt
    have h1 := hodd hlt
    have h2 := hgc.parity (by omega)
    rw [Nat.shiftRight_eq_div_pow] at h2
    omega
  · refine ⟨⟨h.w.fl, ?_, u64_lt _, u64_lt _, h.w.ql, h.w.rl⟩, ?_, h.f.mono (by omega), hgc,
      shl_cong h.u, shl_cong h.v, h.q, h.r⟩
    · dsimp only
      rw [Nat.shiftRight_eq_div_pow]
      exact lt_of_le_of_lt (Nat.div_le_self _ _) h.w.gl
    · have hz' := h.z
      dsimp only at hz' ⊢
      rw [hz']

theorem limitMaskV_spec {eta : ℤ} {i t : ℕ} (h0 : 0 ≤ eta) (h1 : eta ≤ 2 ^ 30) (hi : 1 ≤ i)
    (hi2 : i ≤ 62) (ht : t = 4 ∨ t = 6) :
    ∃ L : ℕ, 1 ≤ L ∧ L ≤ i ∧ (L : ℤ) ≤ eta + 1 ∧ L ≤ t ∧
      limitMaskV eta i (2 ^ t - 1) = some (2 ^ L - 1) ∧ limitMask eta i (2 ^ t - 1) = some (2 ^ L - 1) := by
  obtain ⟨L, l1, l2, l3, l4, e⟩ := limitMask_spec h0 h1 hi hi2 ht
  refine ⟨L, l1, l2, l3, l4, ?_, e⟩
  unfold limitMask at e
  rw [toI32_eq (by omega) (by omega), i32?_some (by omega) (by omega), Option.bind_some] at e
  dsimp only at e
  unfold limitMaskV
  rw [toI32_eq (by omega) (by omega)]
  refine bind_step (i32?_some (by omega) (by omega)) ?_
  dsimp only
  have hlim : (if eta + 1 > i then (i : ℤ) else eta + 1) > 0 ∧ (if eta + 1 > i then (i : ℤ) else eta + 1) ≤ 62 := by
    split <;> omega
  refine bind_step (check_true (decide_eq_true hlim)) ?_
  rw [if_pos ⟨hlim.1, by omega⟩] at e
  exact e

/-- The words of the loop and the words the loop began with. -/
theorem word_check_var {u v f0 g0 f j : ℕ} {U V F : ℤ} (hj : j ≤ 62) (hu : Cong 64 u U)
    (hv : Cong 64 v V) (hf : Cong (64 - j) f F) (h : 2 ^ j * F = U * f0 + V * g0) :
    u64 (u64 (u * f0) + u64 (v * g0)) = u64 (f <<< j) := by
  have l : Cong 64 (u64 (u64 (u * f0) + u64 (v * g0))) (2 ^ j * F) := by
    refine (((((hu.mul (Cong.of_eq rfl)).u64 (le_refl _)).add ((hv.mul (Cong.of_eq rfl)).u64
      (le_refl _))).u64 (le_refl _)).congr (x := U * f0 + V * g0) ?_)
    rw [h]
  have r : Cong 64 (u64 (f <<< j)) (2 ^ j * F) := by
    refine Cong.u64 ?_ (le_refl _)
    rw [Nat.shiftLeft_eq]
    unfold Cong at hf ⊢
    rw [Int.modEq_iff_dvd] at hf ⊢
    obtain ⟨t, ht⟩ := hf
    refine ⟨t, ?_⟩
    push_cast
    have : (18446744073709551616 : ℤ) = 2 ^ j * 2 ^ (64 - j) := by
      rw [show (18446744073709551616 : ℤ) = 2 ^ 64 by norm_num, ← pow_add]; congr 1; omega
    rw [this]
    linear_combination 2 ^ j * ht
  have e : ((u64 (u64 (u * f0) + u64 (v * g0)) : ℕ) : ℤ) ≡ (u64 (f <<< j) : ℕ) [ZMOD 2 ^ 64] :=
    Int.ModEq.trans l (Int.ModEq.symm r)
  have l1 := u64_lt (u64 (u * f0) + u64 (v * g0))
  have l2 := u64_lt (f <<< j)
  unfold Int.ModEq at e
  omega

/-- The bits that the addition cancels. -/
theorem cancel_check {i L w : ℕ} {s : DivVars} (hL : L ≤ i) (hi : i ≤ 64) (h : 2 ^ L ∣ s.g + w * s.f) :
    (addMultiple s w).g &&& (2 ^ L - 1) = 0 := by
  rw [and_low]
  have e : (addMultiple s w).g = u64 (s.g + u64 (s.f * w)) := rfl
  have hp : 2 ^ L ∣ 2 ^ 64 := pow_dvd_pow 2 (by omega)
  rw [e]
  unfold u64
  rw [Nat.mod_mod_of_dvd _ hp, Nat.add_mod, Nat.mod_mod_of_dvd _ hp, ← Nat.add_mod, mul_comm s.f]
  exact Nat.mod_eq_zero_of_dvd h

theorem divsteps62VarLoopV_ok {S : DS} {f0 g0 : ℕ} (hSf : S.f = f0) (hSg : S.g = g0) (hF : S.f % 2 = 1)
    (hz0 : |S.z| ≤ 683) (k : ℕ) : ∀ {i L : ℕ} {s : DivVars} {z f g' u v q r : ℤ}, i ≤ 62 → L ≤ i →
    (i < k ∨ (1 ≤ L ∧ i ≤ k)) → |z| + 2 * i ≤ 2 ^ 29 →
    VRel (i + 2) s ⟨⟨z, f, 2 ^ L * g'⟩, u, v, q, r⟩ →
    (⟨⟨z - L, f, g'⟩, 2 ^ L * u, 2 ^ L * v, q, r⟩ : MS) = mrun 1 (62 - i + L) S →
    ∃ t, divsteps62VarLoopV f0 g0 k s i = some t ∧ divsteps62VarLoop k s i = some t := by
  induction k with
  | zero => intro i L s z f g' u v q r _ h1 h2; omega
  | succ k ih =>
    intro i L s z f g' u v q r hi hL hk hz h hrun
    have hz0' : |z| ≤ 2 ^ 29 := by omega
    obtain ⟨t, c, g'', ev, e, hLc, hc, hg, hodd, ht⟩ := shiftZerosV_spec hi hL (by omega) h
    -- after the shift the state is the one after `c` steps
    have hst : (⟨⟨z - c, f, g''⟩, 2 ^ c * u, 2 ^ c * v, q, r⟩ : MS) = mrun 1 (62 - (i - c)) S := by
      have e0 : 62 - (i - c) = (c - L) + (62 - i + L) := by omega
      have e3 : mrun 1 (62 - (i - c)) S = (mstep 1)^[c - L] (mrun 1 (62 - i + L) S) := by
        rw [e0]; unfold mrun; rw [Function.iterate_add_apply]
      rw [e3, ← hrun, hg, mstep_halve]
      have e1 : z - L - ((c - L : ℕ) : ℤ) = z - c := by omega
      have e2 : ∀ y : ℤ, (2 : ℤ) ^ (c - L) * (2 ^ L * y) = 2 ^ c * y := by
        intro y; rw [← mul_assoc, ← pow_add, show c - L + L = c by omega]
      rw [e1, e2, e2]
    unfold divsteps62VarLoopV divsteps62VarLoop
    rw [e, Option.bind_some]
    dsimp only
    by_cases hi0 : i - c = 0
    · refine ⟨t, bind_step ev ?_, by rw [if_pos hi0]⟩
      dsimp only
      rw [if_pos hi0]
    rw [if_neg hi0]
    have hgo := hodd (by omega)
    have hinv := mrun_inv 1 (z := S.z) (G := S.g) hF (62 - (i - c))
    have hrz := run_z (κ := 1) (Or.inl rfl) (62 - (i - c)) (s := S)
    rw [← mrun_s] at hrz
    have hinv' : MInv S.f S.g (62 - (i - c)) (mrun 1 (62 - (i - c)) S) := hinv
    rw [← hst] at hinv' hrz
    have hf : f % 2 = 1 := hinv'.odd
    have jf := hinv'.f
    have jg := hinv'.g
    rw [hSf, hSg] at jf jg
    dsimp only at jf jg hrz
    have tz : t.z = z - c := ht.z
    have hfo : t.f % 2 = 1 := by
      have := ht.f.parity (by omega); dsimp only at this; omega
    have hgo' : t.g % 2 = 1 := by
      have := ht.g.parity (by omega); dsimp only at this; omega
    have wf : u64 (u64 (t.u * f0) + u64 (t.v * g0)) = u64 (t.f <<< (62 - (i - c))) :=
      word_check_var (by omega) ht.u ht.v (ht.f.mono (by omega)) jf
    have wg : u64 (u64 (t.q * f0) + u64 (t.r * g0)) = u64 (t.g <<< (62 - (i - c))) :=
      word_check_var (by omega) ht.q ht.r (ht.g.mono (by omega)) jg
    have hze : (decide (t.z ≥ -745) && decide (t.z ≤ 745)) = true := by
      rw [tz, Bool.and_eq_true, decide_eq_true_eq, decide_eq_true_eq]
      rw [abs_le] at hrz
      omega
    have pre : ∀ {β : Type} {y : β} {K : Option β}, K = some y →
        (do
          check (decide (t.f &&& 1 = 1))
          check (decide (t.g &&& 1 = 1))
          check (decide (u64 (u64 (t.u * f0) + u64 (t.v * g0)) = u64 (t.f <<< (62 - (i - c)))))
          check (decide (u64 (u64 (t.q * f0) + u64 (t.r * g0)) = u64 (t.g <<< (62 - (i - c)))))
          check (decide (t.z ≥ -745) && decide (t.z ≤ 745))
          K) = some y := by
      intro β y K hK
      refine bind_step (check_true (decide_eq_true (by rw [Nat.and_one_is_mod]; exact hfo))) ?_
      refine bind_step (check_true (decide_eq_true (by rw [Nat.and_one_is_mod]; exact hgo'))) ?_
      exact bind_step (check_true (decide_eq_true wf)) (bind_step (check_true (decide_eq_true wg))
        (bind_step (check_true hze) hK))
    rw [abs_le] at hz0'
    by_cases hneg : t.z < 0
    · rw [if_pos hneg, i64?_some (by omega) (by omega), Option.bind_some]
      obtain ⟨L', l1, l2, l3, l4, hmv, hm⟩ := limitMaskV_spec (eta := -t.z) (i := i - c) (t := 6) (by omega)
        (by omega) (by omega) (by omega) (Or.inr rfl)
      rw [show (63 : ℕ) = 2 ^ 6 - 1 from rfl, hm, Option.bind_some]
      -- the exchanged variables
      have hsw : VRel (i - c + 2) ⟨-t.z, t.g, u64 (2 ^ 64 - t.f), t.q, t.r, u64 (2 ^ 64 - t.u),
          u64 (2 ^ 64 - t.v)⟩ ⟨⟨-(z - c), g'', -f⟩, q, r, -(2 ^ c * u), -(2 ^ c * v)⟩ := by
        refine ⟨⟨ht.w.gl, u64_lt _, ht.w.ql, ht.w.rl, u64_lt _, u64_lt _⟩, ?_, ht.g, ?_, ht.q, ht.r, ?_, ?_⟩
        · dsimp only; rw [tz]
        · exact (ht.f.neg ht.w.fl.le (by omega)).u64 (by omega)
        · exact (ht.u.neg ht.w.ul.le (by omega)).u64 (by omega)
        · exact (ht.v.neg ht.w.vl.le (by omega)).u64 (by omega)
      obtain ⟨w1, w2⟩ := cancel6_spec (f := t.g) (g := u64 (2 ^ 64 - t.f)) hgo' l4
      have hck : (addMultiple (⟨-t.z, t.g, u64 (2 ^ 64 - t.f), t.q, t.r, u64 (2 ^ 64 - t.u),
          u64 (2 ^ 64 - t.v)⟩ : DivVars) (cancel6 t.g (u64 (2 ^ 64 - t.f)) (2 ^ L' - 1))).g &&& (2 ^ L' - 1) = 0 :=
        cancel_check l2 (by omega) w2
      obtain ⟨w, hw⟩ : ∃ w, w = cancel6 t.g (u64 (2 ^ 64 - t.f)) (2 ^ L' - 1) := ⟨_, rfl⟩
      rw [← hw] at w1 w2 hck
      have hcl := cong_clear (c := w) hsw.f hsw.g (by omega) w2
      obtain ⟨g3, hg3, hms⟩ := mstep_clear 1 (L := L') (z := -(z - c)) (f := g'') (g := -f) (u := q) (v := r)
        (q := -(2 ^ c * u)) (r := -(2 ^ c * v)) (w := w) hgo (by omega) (by omega)
        (by exact_mod_cast w1) hcl
      have hadd := addMultiple_rel (w := w) (by omega) hsw
      rw [← hg3] at hadd
      obtain ⟨t', vt', et'⟩ := ih (i := i - c) (L := L') (by omega) l2 (by omega)
        (by
          have : |-(z - (c : ℤ))| ≤ |z| + c := by
            rw [abs_neg]
            have := abs_sub z (c : ℤ)
            rwa [abs_of_nonneg (Int.natCast_nonneg c)] at this
          omega) hadd (by
          rw [← hms, ← mstep_swap l1 (by omega) hf hgo, hst]
          unfold mrun
          rw [← Function.iterate_add_apply, add_comm])
      refine ⟨t', bind_step ev ?_, by rw [← hw]; exact et'⟩
      dsimp only
      rw [if_neg hi0]
      refine pre ?_
      rw [if_pos hneg]
      refine bind_step (i64?_some (by omega) (by omega)) (bind_step hmv ?_)
      rw [← hw]
      exact bind_step (check_true (decide_eq_true hck)) vt'
    · rw [if_neg hneg]
      obtain ⟨L', l1, l2, l3, l4, hmv, hm⟩ := limitMaskV_spec (eta := t.z) (i := i - c) (t := 4) (by omega)
        (by omega) (by omega) (by omega) (Or.inl rfl)
      rw [show (15 : ℕ) = 2 ^ 4 - 1 from rfl, hm, Option.bind_some]
      obtain ⟨w1, w2⟩ := cancel4_spec (f := t.f) (g := t.g) hfo l4
      obtain ⟨w, hw⟩ : ∃ w, w = cancel4 t.f t.g (2 ^ L' - 1) := ⟨_, rfl⟩
      rw [← hw] at w1 w2
      have hck : (addMultiple t w).g &&& (2 ^ L' - 1) = 0 := cancel_check l2 (by omega) w2
      have hcl := cong_clear (c := w) ht.f ht.g (by omega) w2
      obtain ⟨g3, hg3, hms⟩ := mstep_clear 1 (L := L') (z := z - c) (f := f) (g := g'') (u := 2 ^ c * u)
        (v := 2 ^ c * v) (q := q) (r := r) (w := w) hf (by omega) (by omega)
        (by exact_mod_cast w1) hcl
      have hadd := addMultiple_rel (w := w) (by omega) ht
      rw [← hg3] at hadd
      obtain ⟨t', vt', et'⟩ := ih (i := i - c) (L := L') (by omega) l2 (by omega)
        (by
          have := abs_sub z (c : ℤ)
          rw [abs_of_nonneg (Int.natCast_nonneg c)] at this
          omega) hadd (by
          rw [← hms, hst]
          unfold mrun
          rw [← Function.iterate_add_apply, add_comm])
      refine ⟨t', bind_step ev ?_, by rw [← hw]; exact et'⟩
      dsimp only
      rw [if_neg hi0]
      refine pre ?_
      rw [if_neg hneg]
      refine bind_step hmv ?_
      rw [← hw]
      exact bind_step (check_true (decide_eq_true hck)) vt'

theorem divsteps62VarV_ok {z : ℤ} {f0 g0 : ℕ} (hF : f0 % 2 = 1) (hf0 : f0 < 2 ^ 64) (hg0 : g0 < 2 ^ 64)
    (hz : |z| ≤ 683) : divsteps62VarV z f0 g0 = divsteps62Var z f0 g0 := by
  have hF' : ((f0 : ℤ)) % 2 = 1 := by omega
  obtain ⟨s, ev, e⟩ := divsteps62VarLoopV_ok (S := ⟨z, f0, g0⟩) rfl rfl hF' hz 63 (i := 62) (L := 0)
    (s := ⟨z, f0, g0, 1, 0, 0, 1⟩) (z := z) (f := f0) (g' := g0) (u := 1) (v := 0) (q := 0) (r := 1)
    (le_refl _) (by norm_num) (Or.inl (by norm_num)) (by push_cast; omega)
    ⟨⟨hf0, hg0, by norm_num, by norm_num, by norm_num, by norm_num⟩, rfl, Cong.of_eq rfl,
      by rw [pow_zero, one_mul]; exact Cong.of_eq rfl, Cong.of_eq rfl, Cong.of_eq rfl, Cong.of_eq rfl, Cong.of_eq rfl⟩
    (by unfold mrun; norm_num)
  have hspec := divsteps62Var_spec (z := z) (F := f0) (G := g0) hF' (by omega) hf0 hg0 (Cong.of_eq rfl)
    (Cong.of_eq rfl)
  have hdet := mrun_det 1 62 ⟨z, f0, g0⟩
  have hinv := mrun_inv 1 (z := z) (G := g0) hF' 62
  generalize mrun 1 62 ⟨z, f0, g0⟩ = m at *
  obtain ⟨-, -, i3, i4, -⟩ := hinv
  unfold divsteps62Var at hspec ⊢
  rw [e, Option.bind_some] at hspec ⊢
  have e2 : s.trans = ⟨m.u, m.v, m.q, m.r⟩ := (Prod.mk.inj (Option.some.inj hspec)).2
  have bd : ∀ {a b c d : ℤ}, |a| + |b| ≤ 2 ^ 62 → |c| + |d| ≤ 2 ^ 62 → |a * d| ≤ 2 ^ 124 := by
    intro a b c d h1 h2
    have := abs_nonneg b
    have := abs_nonneg c
    rw [abs_mul]
    have : |a| * |d| ≤ 2 ^ 62 * 2 ^ 62 :=
      mul_le_mul (by omega) (by omega) (abs_nonneg _) (by norm_num)
    norm_num at this ⊢
    omega
  have b1 := bd i3 i4
  have b2 := bd (a := m.v) (b := m.u) (c := m.r) (d := m.q) (by rw [add_comm]; exact i3) (by rw [add_comm]; exact i4)
  rw [abs_le] at b1 b2
  unfold divsteps62VarV
  refine bind_step ev (bind_step (a := true) ?_ (bind_step (check_true rfl) rfl))
  rw [e2]
  unfold detCheckPow2
  dsimp only
  generalize m.u * m.r = A at *
  generalize m.v * m.q = B at *
  refine bind_step (i128?_some (by omega) (by omega)) (bind_step (i128?_some (by omega) (by omega))
    (bind_step (check_true ?_) (bind_step (i128?_some (by omega) (by omega)) (bind_step (check_true (by decide)) ?_))))
  · split <;> rw [decide_eq_true_eq] <;> omega
  · rw [hdet]; simp

end Secp.Model.Verify
