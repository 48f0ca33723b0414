import Verif.Spec.EllswiftEnc
import Verif.Proof.EllswiftUniq
import Verif.Proof.EllswiftEnc

/-! # The search for an encoding -/

namespace Secp
open WeierstrassCurve Model Spec FeOps

theorem rootFp_eq (a : Fp) : (FeOps.sqrt a).1 = rootFp a := sqrt_val a

theorem rootFp_zero {a : Fp} (h : IsSquare a) : rootFp a = 0 ↔ a = 0 := by
  rw [← rootFp_eq]
  constructor
  · intro h0
    have := sqrt_sq h
    rw [h0] at this
    rw [← this]; ring
  · rintro rfl
    have := sqrt_sq h
    exact pow_eq_zero_iff (two_ne_zero) |>.1 this

theorem half_C1 : (1 - sqrtMinus3) / 2 = -ellC1 := by
  rw [div_eq_iff two_ne_zero_Fp]; linear_combination ellC1_eq

theorem half_C2 : (1 + sqrtMinus3) / 2 = -ellC2 := by
  rw [div_eq_iff two_ne_zero_Fp]; linear_combination ellC2_eq

theorem invEnd_result (u s v : Fp) {c : ℕ} (hc : c < 8) :
    xswiftecInvEnd u s v c = invResult c (rootFp s) u v := by
  obtain ⟨i0, i1, i2, i3, i4, i5, i6, i7⟩ := invEnd_cases u s v
  rw [rootFp_eq] at *
  have h1 := half_C1
  have h2 := half_C2
  have e1 : u * (1 - sqrtMinus3) / 2 = -ellC1 * u := by rw [← h1]; ring
  have e2 : u * (1 + sqrtMinus3) / 2 = -ellC2 * u := by rw [← h2]; ring
  interval_cases c
  · rw [i0, invResult, e1]; ring
  · rw [i1, invResult, e2]; ring
  · rw [i2, invResult, e1]; ring
  · rw [i3, invResult, e2]; ring
  · rw [i4, invResult, e1]; ring
  · change _ = -rootFp s * (u * (1 + sqrtMinus3) / 2 + v)
    rw [i5, e2]; ring
  · rw [i6, invResult, e1]; ring
  · change _ = -rootFp s * (u * (1 + sqrtMinus3) / 2 + v)
    rw [i7, e2]; ring

/-- The code computes the function of BIP-324. -/
theorem xswiftecInvVar_eq (x u : Fp) {c : ℕ} (hc : c < 8) :
    xswiftecInvVar x u c = xswiftecInv x u c := by
  apply Option.ext
  intro t
  unfold xswiftecInv
  by_cases hl : c = 0 ∨ c = 1 ∨ c = 4 ∨ c = 5
  · have hc2 : c &&& 2 = 0 := by rcases hl with rfl | rfl | rfl | rfl <;> rfl
    rw [if_pos hl, invVar_low hc2]
    dsimp only
    have es : (-(u ^ 2 + u * x + x ^ 2))⁻¹ * (u ^ 3 + 7) = -(u ^ 3 + 7) / (u ^ 2 + u * x + x ^ 2) := by
      rw [inv_neg, div_eq_mul_inv]; ring
    have eq : IsSquare (-(u ^ 2 + u * x + x ^ 2) * (u ^ 3 + 7)) ↔
        IsSquare (-(u ^ 3 + 7) / (u ^ 2 + u * x + x ^ 2)) := by
      by_cases h0 : u ^ 2 + u * x + x ^ 2 = 0
      · rw [h0]; simp
      · have : -(u ^ 2 + u * x + x ^ 2) * (u ^ 3 + 7) =
            (u ^ 2 + u * x + x ^ 2) ^ 2 * (-(u ^ 3 + 7) / (u ^ 2 + u * x + x ^ 2)) := by
          field_simp
        rw [this, square_mul_iff (IsSquare.sq _) (pow_ne_zero 2 h0)]
    rw [es, eq, invEnd_result _ _ _ hc, show -u - x = -x - u by ring]
    by_cases h : OnCurve (-x - u) ∨ ¬ IsSquare (-(u ^ 3 + 7) / (u ^ 2 + u * x + x ^ 2))
    · rw [if_pos h]
      refine ⟨fun h' => ?_, fun h' => by cases h'⟩
      rcases h with h | h
      · exact absurd h h'.1
      · exact absurd h'.2.1 h
    · rw [if_neg h]
      push Not at h
      exact ⟨fun h' => congrArg some h'.2.2.symm, fun h' => ⟨h.1, h.2, (Option.some.inj h').symm⟩⟩
  · have hc2 : c &&& 2 ≠ 0 := by interval_cases c <;> simp_all
    rw [if_neg hl, invVar_high hc2]
    dsimp only
    have eq : -(x - u) * (4 * (u ^ 3 + 7) + 3 * u ^ 2 * (x - u)) =
        -(x - u) * (4 * (u ^ 3 + 7) + 3 * (x - u) * u ^ 2) := by ring
    have ec : c &&& 1 = 1 ↔ c % 2 = 1 := by interval_cases c <;> decide
    rw [eq, rootFp_eq, invEnd_result _ _ _ hc, ec]
    generalize -(x - u) * (4 * (u ^ 3 + 7) + 3 * (x - u) * u ^ 2) = q
    rw [show ((x - u)⁻¹ * rootFp q + -u) / 2 = (-u + rootFp q / (x - u)) / 2 by
      rw [div_eq_mul_inv (rootFp q)]; ring]
    by_cases h : x - u = 0 ∨ ¬ IsSquare q ∨ (c % 2 = 1 ∧ q = 0) ∨ ¬ IsSquare (x - u)
    · rw [if_pos h]
      refine ⟨fun h' => ?_, fun h' => by cases h'⟩
      rcases h with h | h | h | h
      · exact absurd h h'.2.2.2.1
      · exact absurd h'.2.1 h
      · exact absurd ⟨h.1, (rootFp_zero h'.2.1).2 h.2⟩ h'.2.2.1
      · exact absurd h'.1 h
    · rw [if_neg h]
      push Not at h
      exact ⟨fun h' => congrArg some h'.2.2.2.2.symm, fun h' => ⟨h.2.2.2, h.2.1,
        fun h1 => h.2.2.1 h1.1 ((rootFp_zero h.2.1).1 h1.2), h.1, (Option.some.inj h').symm⟩⟩

/-! ## The search -/

theorem prngBuf4_eq (k : ℕ) : prngBuf4 (UInt32.ofNat k) = leBytes 4 k := by
  have e : prngBuf4 (UInt32.ofNat k) = (Hash.writeBe32 (UInt32.ofNat k)).reverse := rfl
  rw [e, Hash.writeBe32_eq, leBytes, UInt32.toNat_ofNat', show 2 ^ 32 = 256 ^ 4 from rfl, Hash.beBytes_mod 4 k]

theorem prng_eq {hasher : Hash.Sha} {m : Bytes} (hm : Hash.Absorbed hasher m) (k : ℕ) :
    ellswiftPrng hasher (UInt32.ofNat k) = ellRandom m k := by
  rw [ellswiftPrng, (Hash.finalize_spec (Hash.write_absorbed hm _)).1, prngBuf4_eq, ellRandom]

theorem ellBranch_eq (b : Bytes) (j : ℕ) :
    ellBranch b j = (b.getD (j / 2) 0).toNat / 16 ^ (j % 2) % 8 := by
  unfold ellBranch
  rw [Nat.shiftRight_eq_div_pow, Nat.shiftRight_eq_div_pow, Nat.shiftLeft_eq, pow_one,
    show (7 : ℕ) = 2 ^ 3 - 1 from rfl, Nat.and_two_pow_sub_one_eq_mod,
    show j &&& 1 = j % 2 from Nat.and_one_is_mod j, show (16 : ℕ) = 2 ^ 4 from rfl, ← pow_mul]
  congr 3
  omega

theorem ellBranch_lt (b : Bytes) (j : ℕ) : ellBranch b j < 8 := by
  rw [ellBranch_eq]; exact Nat.mod_lt _ (by decide)

/-- The first iteration that succeeds, from iteration `i` on. -/
theorem search_loop {x : Fp} {hasher : Hash.Sha} {m : Bytes} (hm : Hash.Absorbed hasher m) (fuel : ℕ) :
    ∀ (i : ℕ) (bh : Bytes) (left : ℕ) (cnt : UInt32),
      (i % 64 = 0 ∧ left = 0 ∧ cnt = UInt32.ofNat (65 * (i / 64)) ∨
        i % 64 ≠ 0 ∧ bh = ellRandom m (65 * (i / 64)) ∧ left = 64 - i % 64 ∧
          cnt = UInt32.ofNat (65 * (i / 64) + 1 + i % 64)) →
      xelligatorswiftLoop x hasher fuel bh left cnt =
        (List.range' i fuel).findSome? fun i =>
          (xswiftecInv x (beNat (ellDraw m i).1 : Fp) (ellDraw m i).2).map fun t => ((ellDraw m i).1, t) := by
  induction fuel with
  | zero => intros; rfl
  | succ f ih =>
    intro i bh left cnt h
    have hpool : ellPool hasher bh left cnt =
        (ellRandom m (65 * (i / 64)), 64 - i % 64, UInt32.ofNat (65 * (i / 64) + 1 + i % 64)) := by
      unfold ellPool
      rcases h with ⟨h1, h2, h3⟩ | ⟨h1, h2, h3, h4⟩
      · rw [if_pos h2, h3, prng_eq hm, h1]
        rw [add_zero, UInt32.ofNat_add]
        rfl
      · rw [if_neg (by omega), h2, h3, h4]
    rw [xelligatorswiftLoop, hpool]
    dsimp only
    rw [prng_eq hm, ellBranch_eq, show 64 - i % 64 - 1 = 63 - i % 64 by omega, List.range'_succ,
      List.findSome?_cons]
    have hd : ellDraw m i = (ellRandom m (65 * (i / 64) + 1 + i % 64),
      ((ellRandom m (65 * (i / 64))).getD ((63 - i % 64) / 2) 0).toNat / 16 ^ ((63 - i % 64) % 2) % 8) := rfl
    have hu : feSetB32Mod (ellRandom m (65 * (i / 64) + 1 + i % 64)) =
        (beNat (ellRandom m (65 * (i / 64) + 1 + i % 64)) : Fp) := by
      unfold feSetB32Mod
      rw [List.take_of_length_le (by rw [ellRandom, Hash.sha_length])]
    rw [hu, xswiftecInvVar_eq _ _ (Nat.mod_lt _ (by decide)), hd]
    dsimp only
    generalize xswiftecInv x _ _ = o
    cases o with
    | some t => rfl
    | none =>
      dsimp only [Option.map_none]
      rw [ih (i + 1)]
      by_cases h63 : i % 64 = 63
      · left
        refine ⟨by omega, by omega, ?_⟩
        rw [← UInt32.ofNat_one, ← UInt32.ofNat_add]
        congr 1
        omega
      · right
        refine ⟨by omega, ?_, by omega, ?_⟩
        · rw [show (i + 1) / 64 = i / 64 by omega]
        · rw [← UInt32.ofNat_one, ← UInt32.ofNat_add]
          congr 1
          omega

/-- The whole search. -/
theorem search_eq {P : Pt} (hP : P ≠ 0) {a : Ge Fp} (ha : GeRep 7 a P) {hasher : Hash.Sha} {m : Bytes}
    (hm : Hash.Absorbed hasher m) (fuel : ℕ) {ell : Bytes} (hl : ell.length = 64) :
    (elligatorswiftVar fuel a hasher).map (ellswiftPut ell) =
      (List.range fuel).findSome? (ellTry m (ptX P : Fp) (ptY P : Fp)) := by
  obtain ⟨hn, rfl⟩ := ha.elim (geRep_inf ha hP)
  rw [ptX_some, ptY_some, ZMod.natCast_zmod_val, ZMod.natCast_zmod_val]
  unfold elligatorswiftVar xelligatorswiftVar
  rw [search_loop hm fuel 0 [] 0 0 (Or.inl ⟨rfl, rfl, rfl⟩), List.range_eq_range']
  generalize List.range' 0 fuel = is
  induction is with
  | nil => rfl
  | cons i is ih =>
    rw [List.findSome?_cons, List.findSome?_cons]
    unfold ellTry
    cases h : xswiftecInv a.x (beNat (ellDraw m i).1 : Fp) (ellDraw m i).2 with
    | none => exact ih
    | some t =>
      dsimp only [Option.map_some]
      rw [ellswiftPut_eq hl (by exact Hash.sha_length _)]
      congr 3
      have en : FeOps.normalize t = t := rfl
      rw [en]
      have i1 := feIsOdd_iff t
      have i2 := feIsOdd_iff a.y
      by_cases ho : feIsOdd t = feIsOdd a.y
      · rw [if_neg (by simp [ho]), if_pos]
        rw [ho, i2] at i1
        omega
      · rw [if_pos (by simpa using ho), if_neg]
        · rfl
        · intro he
          apply ho
          rw [Bool.eq_iff_iff, i1, i2, he]

end Secp
