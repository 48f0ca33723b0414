import Verif.Proof.VerifyModinvAll
import Verif.Proof.VerifyScalar4All

/-! # C85: the checks of a `VERIFY` build inside the constant-time modular inverse

A build with `VERIFY` checks inside `secp256k1_modinv64`: the ranges of all four variables in every iteration, the
counter, the transition matrix against the words it was computed from and its determinant, the bits that are shifted
out, every conversion of a 128-bit accumulator to a limb, and at the end that the greatest common divisor is one.
The functions with the suffix `V` make these checks; `none` is an abort or undefined behaviour.  `M.Ok m` is what
modinv64.h requires of a modulus and `x.Canon` what it requires of the limbs of the argument; `x.int` is their
value. -/

namespace Secp
open Model Model.Verify Spec

/-- For every odd modulus of at most 256 bits and every argument below it that is zero or coprime to it, none of the
checks fails, and the result is the one of the build without checks, the inverse. -/
theorem C85_modinv64 {M : Modinfo} {m : ℤ} (hM : M.Ok m) {x : S62} (hx : x.Canon) (hlt : x.int < m)
    (hc : x.int = 0 ∨ IsCoprime x.int m) :
    ∃ r, modinv64V x M = some r ∧ modinv64 x M = some r ∧ r.Canon ∧ r.int < m ∧
      (x.int = 0 → r.int = 0) ∧ (x.int ≠ 0 → r.int * x.int % m = 1) := by
  obtain ⟨r, e, h1, h2, h3, h4⟩ := C46_modinv64 hM hx hlt
  exact ⟨r, by rw [(modinv64V_iff hM hx hlt).1 hc, e], e, h1, h2, h3, fun h => h4 (hc.resolve_left h)⟩

/-- For every other argument below the modulus, that is one that has no inverse and is not zero, the build with
`VERIFY` aborts. -/
theorem C85_no_inverse {M : Modinfo} {m : ℤ} (hM : M.Ok m) {x : S62} (hx : x.Canon) (hlt : x.int < m)
    (h0 : x.int ≠ 0) (hc : ¬ IsCoprime x.int m) : modinv64V x M = none :=
  (modinv64V_iff hM hx hlt).2 (fun h => h.elim h0 hc)

/-- The 59 division steps on any words, the first odd, with a counter in the range of the caller: none of the checks
on the matrix, the counter and the determinant fails. -/
theorem C85_divsteps {z : ℤ} {f0 g0 : ℕ} (hf : f0 % 2 = 1) (hf0 : f0 < 2 ^ 64) (hg0 : g0 < 2 ^ 64)
    (hz : |z| ≤ 532) : divsteps59V z f0 g0 = some (divsteps59 z f0 g0) :=
  divsteps59V_ok hf hf0 hg0 (hz.trans (by norm_num))

/-- An even first word makes them fail. -/
theorem C85_divsteps_even {z : ℤ} {f0 g0 : ℕ} (hf : f0 % 2 = 0) : divsteps59V z f0 g0 = none := by
  have h : divsteps59LoopV f0 g0 59 3 ⟨z, f0, g0, 8, 0, 0, 8⟩ = none := by
    unfold divsteps59LoopV
    rw [show decide (f0 &&& 1 = 1) = false by rw [Nat.and_one_is_mod, hf]; rfl]
    rfl
  unfold divsteps59V
  rw [h]
  rfl

/-- The comparison that the checks on ranges use compares `a` with `factor * b`, for all limbs of up to 62 bits and
sign. -/
theorem C85_mul_cmp {a b : S62} {k : ℤ} (ha : a.Small) (hb : b.Small) (hk : |k| ≤ 2)
    (ia : |a.int| ≤ 2 ^ 300) (ib : |b.int| ≤ 2 ^ 300) :
    ∃ c, mulCmp62 a b k = some c ∧ (c < 0 ↔ a.int < k * b.int) ∧ (c = 0 ↔ a.int = k * b.int) ∧
      (0 < c ↔ k * b.int < a.int) :=
  mulCmp62_ok ha hb hk ia ib

theorem zero_or_coprime {q : ℕ} (hq : q.Prime) {y : S62} (hy : y.Canon) (hlt : y.int < q) :
    y.int = 0 ∨ IsCoprime y.int q := by
  have h0 : 0 ≤ y.int := by
    obtain ⟨a, b, c, d, e⟩ := hy
    unfold S62.int
    omega
  obtain ⟨k, hk⟩ := Int.eq_ofNat_of_zero_le h0
  rw [hk] at hlt ⊢
  by_cases hk0 : k = 0
  · exact Or.inl (by rw [hk0]; rfl)
  · exact Or.inr (coprime_of_prime hq hk0 (by exact_mod_cast hlt))

/-- `secp256k1_scalar_inverse` with all its checks, those inside the modular inverse included. -/
theorem C85_scalar_inverse {a : Sc4} {v : Fn} (ha : a.Rep v) :
    ∃ r, scInverseAllV a = some r ∧ Sc4.inverse? a = some r ∧ r.Rep v⁻¹ := by
  have hf : ∀ {y : S62}, y.Canon → y.int < n → ∃ r, modinv64V y modinfoScalar = some r ∧ r.Canon ∧ r.int < n ∧
      (y.int = 0 → r.int = 0) ∧ (IsCoprime y.int n → r.int * y.int % n = 1) := by
    intro y hy hlt
    obtain ⟨r, e, c1, c2, c3, c4⟩ := C46_modinv64 modinfoScalar_ok hy hlt
    exact ⟨r, by rw [(modinv64V_iff modinfoScalar_ok hy hlt).1 (zero_or_coprime n_prime hy hlt), e], c1, c2, c3, c4⟩
  have e1 : scInverseAllV a = _ := inverseV_of ha (f := fun s => modinv64V s modinfoScalar) hf
  obtain ⟨c1, c2⟩ := Sc4.toSigned62_spec ha.words
  have hlt : a.toSigned62.int < n := by rw [c2]; exact_mod_cast ha.lt
  rw [(modinv64V_iff modinfoScalar_ok c1 hlt).1 (zero_or_coprime n_prime c1 hlt)] at e1
  obtain ⟨r, w, e, hr, h0, h1⟩ := C46_scalar_inverse ha
  refine ⟨r, e1.trans e, e, ?_⟩
  have : w = v⁻¹ := by
    by_cases hv : v = 0
    · rw [h0 hv, hv, _root_.inv_zero]
    · exact eq_inv_of_mul_eq_one_left (h1 hv)
  rwa [← this]

/-- `secp256k1_fe_impl_inv` with the checks inside the modular inverse and on the limbs it returns. -/
theorem C85_fe_inv {x : Fe5} {v : Fp} (hx : x.Rep 32 v) :
    ∃ r, feImplInvV x = some r ∧ Fe5.inv? x = some r ∧ r.Norm ∧ (r.nat : Fp) = v⁻¹ := by
  obtain ⟨r, e, hr, h0, h1⟩ := C46_fe_inv hx
  refine ⟨r, ?_, e, hr, ?_⟩
  · obtain ⟨hn, hv⟩ := Fe5.normalize_spec hx.mag
    obtain ⟨c1, c2⟩ := Fe5.toSigned62_spec hn
    have hlt : (Fe5.toSigned62 (Fe5.normalize x)).int < p := by rw [c2]; exact_mod_cast hn.lt
    obtain ⟨s, es, s1, s2, -, -⟩ := C46_modinv64 modinfoFe_ok c1 hlt
    have ev : modinv64V (Fe5.toSigned62 (Fe5.normalize x)) modinfoFe = some s := by
      rw [(modinv64V_iff modinfoFe_ok c1 hlt).1 (zero_or_coprime p_prime c1 hlt), es]
    unfold Fe5.inv? at e
    rw [es, Option.bind_some] at e
    unfold feImplInvV
    refine bind_step ev ?_
    have hp : (p : ℤ) < 2 ^ 256 := by unfold p; decide
    obtain ⟨h0, h1, h2, h3, h4⟩ := s1
    have h4' : s.v4 < 2 ^ 8 := by
      unfold S62.int at s2
      omega
    refine bind_step (check_true (decide_eq_true (toU64_shr h0.1 h0.2))) ?_
    refine bind_step (check_true (decide_eq_true (toU64_shr h1.1 h1.2))) ?_
    refine bind_step (check_true (decide_eq_true (toU64_shr h2.1 h2.2))) ?_
    refine bind_step (check_true (decide_eq_true (toU64_shr h3.1 h3.2))) ?_
    exact bind_step (check_true (decide_eq_true (toU64_shr h4.1 h4'))) e
  · by_cases hv : v = 0
    · rw [h0 hv, hv, _root_.inv_zero, Nat.cast_zero]
    · exact eq_inv_of_mul_eq_one_left (h1 hv)

/-! ### Examples -/

/-- The modulus 15: 7 has an inverse, 6 has none and the build aborts; without `VERIFY` it returns a number. -/
def modinfo15 : Modinfo := ⟨⟨15, 0, 0, 0, 0⟩, 3381903080180084463⟩

theorem modinfo15_ok : modinfo15.Ok 15 := by
  refine ⟨?_, ?_, ?_, ?_, ?_, ?_, ?_, ?_, ?_, ?_⟩ <;> decide +kernel

example : ∃ r, modinv64V ⟨7, 0, 0, 0, 0⟩ modinfo15 = some r ∧ r.int * 7 % 15 = 1 := by
  obtain ⟨r, e, -, -, -, -, h⟩ := C85_modinv64 modinfo15_ok (x := ⟨7, 0, 0, 0, 0⟩)
    ⟨by norm_num, by norm_num, by norm_num, by norm_num, by norm_num⟩ (by norm_num [S62.int])
    (Or.inr ⟨-2, 1, by norm_num [S62.int]⟩)
  exact ⟨r, e, by simpa [S62.int] using h (by norm_num [S62.int])⟩

example : modinv64V ⟨6, 0, 0, 0, 0⟩ modinfo15 = none ∧ modinv64 ⟨6, 0, 0, 0, 0⟩ modinfo15 ≠ none := by
  refine ⟨C85_no_inverse modinfo15_ok (x := ⟨6, 0, 0, 0, 0⟩)
    ⟨by norm_num, by norm_num, by norm_num, by norm_num, by norm_num⟩ (by norm_num [S62.int]) (by norm_num [S62.int])
    (by rintro ⟨a, b, h⟩; norm_num [S62.int] at h; omega), by decide +kernel⟩

/-- The inverse of the largest scalar, with all checks, by computation. -/
example : scInverseAllV ⟨scN0 - 1, scN1, scN2, scN3⟩ = some ⟨scN0 - 1, scN1, scN2, scN3⟩ := by decide +kernel

/-- The counter of a caller that has made 590 steps already. -/
example : divsteps59V (-591) 1 0 = none := by decide +kernel

example : divsteps59V (-532) 1 0 ≠ none := by decide +kernel

end Secp
