import Verif.Proof.VerifyModinvVarAll
import Verif.Props.C85

/-! # C86: the checks of a `VERIFY` build inside the variable-time modular inverse

A build with `VERIFY` checks inside `secp256k1_modinv64_var`: that it makes at most twelve passes, the ranges of all four
variables, with the number of limbs in use, in every pass, the counter, the number of bits to cancel and the bits
cancelled, the transition matrix against the words it was computed from and its determinant, the bits that are shifted
out, every conversion of a 128-bit accumulator to a limb, and at the end that the greatest common divisor is one.
The functions with the suffix `V` make these checks; `none` is an abort or undefined behaviour.  `fuel` bounds the
number of passes in the model. -/

namespace Secp
open Model Model.Verify Spec

theorem canon_nonneg {a : S62} (ha : a.Canon) : 0 ≤ a.int := by
  obtain ⟨a0, a1, a2, a3, a4⟩ := ha
  unfold S62.int
  omega

theorem canon_ext {a b : S62} (ha : a.Canon) (hb : b.Canon) (h : a.int = b.int) : a = b := by
  obtain ⟨a0, a1, a2, a3, a4⟩ := ha
  obtain ⟨b0, b1, b2, b3, b4⟩ := hb
  cases a; cases b
  simp only [S62.int] at *
  simp only [S62.mk.injEq]
  omega

/-- For every odd modulus of at most 256 bits and every argument below it that is zero or coprime to it, none of the
checks fails, and the result is the one of the build without checks, the inverse. -/
theorem C86_modinv64_var {M : Modinfo} {m : ℤ} (hM : M.Ok m) {x : S62} (hx : x.Canon) (hlt : x.int < m)
    (hc : x.int = 0 ∨ IsCoprime x.int m) {fuel : ℕ} (hf : 12 ≤ fuel) :
    ∃ r, modinv64VarV fuel x M = some r ∧ modinv64Var fuel x M = some r ∧ modinv64V x M = some r ∧ r.Canon ∧
      r.int < m ∧ (x.int = 0 → r.int = 0) ∧ (x.int ≠ 0 → r.int * x.int % m = 1) := by
  obtain ⟨r, e, h1, h2, h3, h4⟩ := C46_modinv64_var hM hx hlt hf
  obtain ⟨s, e', -, k1, k2, k3, k4⟩ := C85_modinv64 hM hx hlt hc
  have hrs : r = s := by
    refine canon_ext h1 k1 ?_
    by_cases h0 : x.int = 0
    · rw [h3 h0, k3 h0]
    · have hm := hM.ge
      have a1 := h4 (hc.resolve_left h0)
      have a2 := k4 h0
      have b1 := canon_nonneg h1
      have b2 := canon_nonneg k1
      have c : r.int ≡ s.int [ZMOD m] := by
        have hm1 : 1 < m := by
          by_contra h
          have : m = 1 := by omega
          rw [this] at a1
          omega
        have c1 : r.int * x.int ≡ 1 [ZMOD m] := by
          unfold Int.ModEq
          rw [a1, Int.emod_eq_of_lt (by norm_num) hm1]
        have c2 : s.int * x.int ≡ 1 [ZMOD m] := by
          unfold Int.ModEq
          rw [a2, Int.emod_eq_of_lt (by norm_num) hm1]
        calc r.int = r.int * 1 := by ring
          _ ≡ r.int * (s.int * x.int) [ZMOD m] := (c2.symm).mul_left _
          _ = s.int * (r.int * x.int) := by ring
          _ ≡ s.int * 1 [ZMOD m] := c1.mul_left _
          _ = s.int := by ring
      unfold Int.ModEq at c
      rwa [Int.emod_eq_of_lt b1 h2, Int.emod_eq_of_lt b2 k2] at c
  exact ⟨r, by rw [(modinv64VarV_iff hM hx hlt hf).1 hc, e], e, by rw [hrs, e'], h1, h2, h3,
    fun h => h4 (hc.resolve_left h)⟩

/-- For every other argument below the modulus, that is one that has no inverse and is not zero, the build with
`VERIFY` aborts. -/
theorem C86_no_inverse {M : Modinfo} {m : ℤ} (hM : M.Ok m) {x : S62} (hx : x.Canon) (hlt : x.int < m)
    (h0 : x.int ≠ 0) (hc : ¬ IsCoprime x.int m) {fuel : ℕ} (hf : 12 ≤ fuel) : modinv64VarV fuel x M = none :=
  (modinv64VarV_iff hM hx hlt hf).2 (fun h => h.elim h0 hc)

/-- The 62 division steps on any words, the first odd, with a counter in the range of the caller: none of the checks
on the words, the counter, the cancelled bits and the determinant fails. -/
theorem C86_divsteps {z : ℤ} {f0 g0 : ℕ} (hf : f0 % 2 = 1) (hf0 : f0 < 2 ^ 64) (hg0 : g0 < 2 ^ 64)
    (hz : |z| ≤ 683) : ∃ r, divsteps62VarV z f0 g0 = some r ∧ divsteps62Var z f0 g0 = some r := by
  have h := divsteps62Var_spec (z := z) (F := f0) (G := g0) (by omega) (by omega) hf0 hg0 (Cong.of_eq rfl)
    (Cong.of_eq rfl)
  exact ⟨_, by rw [divsteps62VarV_ok hf hf0 hg0 hz, h], h⟩

/-- An even first word makes them fail, unless the second has no bit to work on. -/
theorem C86_divsteps_even {z : ℤ} {f0 g0 : ℕ} (hf : f0 % 2 = 0) (hg : ¬ 2 ^ 62 ∣ g0) : divsteps62VarV z f0 g0 = none := by
  have h : divsteps62VarLoopV f0 g0 63 ⟨z, f0, g0, 1, 0, 0, 1⟩ 62 = none := by
    unfold divsteps62VarLoopV
    obtain ⟨k, e, hk, hd, -, -⟩ := zeros_spec (g := g0) (i := 62) (le_refl _)
    have hlt : ¬ 62 - k = 0 := by
      intro h0
      have : k = 62 := by omega
      rw [this] at hd
      exact hg hd
    cases hs : shiftZerosV ⟨z, f0, g0, 1, 0, 0, 1⟩ 62 with
    | none => rfl
    | some si =>
      have hsi : si.1.f = f0 ∧ si.2.1 = 62 - k := by
        unfold shiftZerosV at hs
        cases hc : check (decide (g0 ||| u64 ((2 ^ 64 - 1) <<< 62) ≠ 0)) with
        | none => rw [hc] at hs; cases hs
        | some _ =>
          rw [hc] at hs
          change shiftZeros _ _ = _ at hs
          unfold shiftZeros at hs
          dsimp only at hs
          rw [e, if_pos hk] at hs
          cases hi : i64? (z - k) with
          | none => rw [hi] at hs; cases hs
          | some a =>
            rw [hi, Option.bind_some] at hs
            cases hs
            exact ⟨rfl, rfl⟩
      refine bind_step rfl ?_
      rw [if_neg (by rw [hsi.2]; exact hlt), show decide (si.1.f &&& 1 = 1) = false by
        rw [hsi.1, Nat.and_one_is_mod, hf]; rfl]
      rfl
  unfold divsteps62VarV
  rw [h]
  rfl

/-- The comparison with fewer limbs in use compares the value of these limbs. -/
theorem C86_mul_cmp {A B : List ℤ} {b : S62} {k : ℤ} (hl : A.length ≤ 5) (ha : SmallL A) (hb : b.Small) (hk : |k| ≤ 2)
    (ia : |limbsInt A| ≤ 2 ^ 300) (ib : |b.int| ≤ 2 ^ 300) :
    ∃ c, mulCmp62Len (A ++ B) A.length b k = some c ∧ (c < 0 ↔ limbsInt A < k * b.int) ∧
      (c = 0 ↔ limbsInt A = k * b.int) ∧ (0 < c ↔ k * b.int < limbsInt A) := by
  rw [← padS_int hl] at ia ⊢
  rw [mulCmp62Len_ok (padS_small ha) ia]
  exact mulCmp62_ok (padS_small ha) hb hk ia ib

/-- `secp256k1_scalar_inverse_var` with all its checks, those inside the modular inverse included. -/
theorem C86_scalar_inverse_var {a : Sc4} {v : Fn} (ha : a.Rep v) {fuel : ℕ} (hf : 12 ≤ fuel) :
    ∃ r, scInverseVarAllV fuel a = some r ∧ Sc4.inverseVar? fuel a = some r ∧ r.Rep v⁻¹ := by
  have hfn : ∀ {y : S62}, y.Canon → y.int < n → ∃ r, modinv64VarV fuel y modinfoScalar = some r ∧ r.Canon ∧
      r.int < n ∧ (y.int = 0 → r.int = 0) ∧ (IsCoprime y.int n → r.int * y.int % n = 1) := by
    intro y hy hlt
    obtain ⟨r, e, c1, c2, c3, c4⟩ := C46_modinv64_var modinfoScalar_ok hy hlt hf
    exact ⟨r, by rw [(modinv64VarV_iff modinfoScalar_ok hy hlt hf).1 (zero_or_coprime n_prime hy hlt), e], c1, c2,
      c3, c4⟩
  have e1 : scInverseVarAllV fuel a = _ := inverseV_of ha (f := fun s => modinv64VarV fuel s modinfoScalar) hfn
  obtain ⟨c1, c2⟩ := Sc4.toSigned62_spec ha.words
  have hlt : a.toSigned62.int < n := by rw [c2]; exact_mod_cast ha.lt
  rw [(modinv64VarV_iff modinfoScalar_ok c1 hlt hf).1 (zero_or_coprime n_prime c1 hlt)] at e1
  obtain ⟨r, w, e, hr, h0, h1⟩ := C46_scalar_inverse_var ha hf
  refine ⟨r, e1.trans e, e, ?_⟩
  have : w = v⁻¹ := by
    by_cases hv : v = 0
    · rw [h0 hv, hv, _root_.inv_zero]
    · exact eq_inv_of_mul_eq_one_left (h1 hv)
  rwa [← this]

/-- `secp256k1_fe_impl_inv_var` with the checks inside the modular inverse and on the limbs it returns. -/
theorem C86_fe_inv_var {x : Fe5} {v : Fp} (hx : x.Rep 32 v) {fuel : ℕ} (hf : 12 ≤ fuel) :
    ∃ r, feImplInvVarV fuel x = some r ∧ Fe5.invVar? fuel x = some r ∧ r.Norm ∧ (r.nat : Fp) = v⁻¹ := by
  obtain ⟨r, e, hr, h0, h1⟩ := C46_fe_inv_var hx hf
  refine ⟨r, ?_, e, hr, ?_⟩
  · obtain ⟨hn, hv⟩ := Fe5.normalize_spec hx.mag
    obtain ⟨c1, c2⟩ := Fe5.toSigned62_spec hn
    have hlt : (Fe5.toSigned62 (Fe5.normalize x)).int < p := by rw [c2]; exact_mod_cast hn.lt
    obtain ⟨s, es, s1, s2, -, -⟩ := C46_modinv64_var modinfoFe_ok c1 hlt hf
    have ev : modinv64VarV fuel (Fe5.toSigned62 (Fe5.normalize x)) modinfoFe = some s := by
      rw [(modinv64VarV_iff modinfoFe_ok c1 hlt hf).1 (zero_or_coprime p_prime c1 hlt), es]
    unfold Fe5.invVar? at e
    rw [Fe5.normalizeVar_eq hx.mag, es, Option.bind_some] at e
    unfold feImplInvVarV
    rw [Fe5.normalizeVar_eq hx.mag]
    refine bind_step ev ?_
    have hp : (p : ℤ) < 2 ^ 256 := by unfold p; decide
    obtain ⟨h0, h1, h2, h3, h4⟩ := s1
    have h4' : s.v4 < 2 ^ 8 := by
      unfold S62.int at s2
      omega
    refine bind_step (check_true (decide_eq_true (toU64_shr h0.1 h0.2))) ?_
    refine bind_step (check_true (decide_eq_true (toU64_shr h1.1 h1.2))) ?_
    refine bind_step (check_true (decide_eq_true (toU64_shr h2.1 h2.2))) ?_
    refine bind_step (check_true (decide_eq_true (toU64_shr h3.1 h3.2))) ?_
    exact bind_step (check_true (decide_eq_true (toU64_shr h4.1 h4'))) e
  · by_cases hv : v = 0
    · rw [h0 hv, hv, _root_.inv_zero, Nat.cast_zero]
    · exact eq_inv_of_mul_eq_one_left (h1 hv)

/-! ### Examples -/

/-- The modulus 15: 7 has an inverse, 6 has none and the build aborts; without `VERIFY` it returns a number. -/
example : modinv64VarV 12 ⟨7, 0, 0, 0, 0⟩ modinfo15 = some ⟨13, 0, 0, 0, 0⟩ := by decide +kernel

example : modinv64VarV 12 ⟨6, 0, 0, 0, 0⟩ modinfo15 = none ∧ modinv64Var 12 ⟨6, 0, 0, 0, 0⟩ modinfo15 ≠ none := by
  refine ⟨C86_no_inverse modinfo15_ok (x := ⟨6, 0, 0, 0, 0⟩)
    ⟨by norm_num, by norm_num, by norm_num, by norm_num, by norm_num⟩ (by norm_num [S62.int]) (by norm_num [S62.int])
    (by rintro ⟨a, b, h⟩; norm_num [S62.int] at h; omega) (le_refl _), by decide +kernel⟩

/-- The inverse of the largest scalar, with all checks, by computation. -/
example : scInverseVarAllV 12 ⟨scN0 - 1, scN1, scN2, scN3⟩ = some ⟨scN0 - 1, scN1, scN2, scN3⟩ := by decide +kernel

/-- The counter of a caller that has made 744 steps already, and of one that has made 682. -/
example : divsteps62VarV (-746) 1 1 = none ∧ divsteps62VarV (-683) 1 1 ≠ none := by
  constructor <;> decide +kernel

end Secp
