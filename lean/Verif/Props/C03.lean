import Verif.Props.C02

/-! # C03: public key comparison is the lexicographic total order on compressed encodings

`<` on byte strings (`List UInt8`) is the lexicographic order. -/

namespace Secp
open Model Spec

theorem memcmpVar_cons (x y : UInt8) (a b : Bytes) (k : ℕ) : memcmpVar (x :: a) (y :: b) (k + 1) =
    if (x.toNat : Int) - y.toNat ≠ 0 then (x.toNat : Int) - y.toNat else memcmpVar a b k := rfl

theorem memcmpVar_lt : ∀ {k : ℕ} {a b : Bytes}, a.length = k → b.length = k →
    (memcmpVar a b k < 0 ↔ a < b) ∧ (memcmpVar a b k = 0 ↔ a = b) ∧
      (0 < memcmpVar a b k ↔ b < a)
  | 0, [], [], _, _ => by simp [memcmpVar]
  | k + 1, x :: a, y :: b, ha, hb => by
    obtain ⟨i1, i2, i3⟩ := memcmpVar_lt (k := k) (a := a) (b := b) (by simpa using ha)
      (by simpa using hb)
    rw [memcmpVar_cons, List.cons_lt_cons_iff, List.cons_lt_cons_iff, List.cons.injEq]
    by_cases h : x = y
    · subst h
      simp [i1, i2, i3]
    · have hn : x.toNat ≠ y.toNat := fun e => h (UInt8.toNat_inj.1 e)
      have hn' : ¬ y = x := fun e => h e.symm
      simp only [h, hn', false_and, or_false, iff_false, UInt8.lt_iff_toNat_lt]
      rw [if_pos (by omega)]
      omega

theorem cmpKey_valid {P : Pt} (hP : P ≠ 0) :
    ecPubkeyCmpKey (some (keyObject P)) = (compressed P, 0) := by
  unfold ecPubkeyCmpKey
  rw [C02_serialize_compressed hP (zeros 33) (len := 33) (le_refl _) (by simp [zeros])]
  simp [zeros]

/-- The sign of the comparison of two valid keys is that of the lexicographic comparison of their
compressed encodings; no callback. -/
theorem C03_cmp_lex {P Q : Pt} (hP : P ≠ 0) (hQ : Q ≠ 0) :
    let o := ecPubkeyCmp (some (keyObject P)) (some (keyObject Q))
    (o.ret < 0 ↔ compressed P < compressed Q) ∧ (o.ret = 0 ↔ compressed P = compressed Q) ∧
      (0 < o.ret ↔ compressed Q < compressed P) ∧ o.illegal = 0 := by
  simp only [ecPubkeyCmp, cmpKey_valid hP, cmpKey_valid hQ]
  obtain ⟨h1, h2, h3⟩ := memcmpVar_lt (compressed_length P) (compressed_length Q)
  exact ⟨h1, h2, h3, trivial⟩

/-- Zero exactly on equal keys. -/
theorem C03_cmp_eq_zero {P Q : Pt} (hP : P ≠ 0) (hQ : Q ≠ 0) :
    (ecPubkeyCmp (some (keyObject P)) (some (keyObject Q))).ret = 0 ↔ P = Q :=
  ((C03_cmp_lex hP hQ).2.1).trans compressed_injective.eq_iff

/-- Antisymmetric: swapping the arguments swaps the sign. -/
theorem C03_cmp_antisymm {P Q : Pt} (hP : P ≠ 0) (hQ : Q ≠ 0) :
    (ecPubkeyCmp (some (keyObject P)) (some (keyObject Q))).ret < 0 ↔
      0 < (ecPubkeyCmp (some (keyObject Q)) (some (keyObject P))).ret :=
  ((C03_cmp_lex hP hQ).1).trans ((C03_cmp_lex hQ hP).2.2.1).symm

/-- Transitive. -/
theorem C03_cmp_trans {P Q R : Pt} (hP : P ≠ 0) (hQ : Q ≠ 0) (hR : R ≠ 0)
    (h1 : (ecPubkeyCmp (some (keyObject P)) (some (keyObject Q))).ret < 0)
    (h2 : (ecPubkeyCmp (some (keyObject Q)) (some (keyObject R))).ret < 0) :
    (ecPubkeyCmp (some (keyObject P)) (some (keyObject R))).ret < 0 := by
  rw [(C03_cmp_lex hP hQ).1] at h1
  rw [(C03_cmp_lex hQ hR).1] at h2
  rw [(C03_cmp_lex hP hR).1]
  exact List.lt_trans h1 h2

theorem caseX_eq : ((0x1AE168FEA63DC339A3C58419466CEAEEF7F632653266D0E1236431A950CFE52A : ℕ) : Fp) ^ 2 =
    ((0xC6047F9441ED7D6D3045406E95C07CD85C778E4B8CEF3CA7ABAC09B95C709EE5 : ℕ) : Fp) ^ 3 + 7 := by
  have : ((0x1AE168FEA63DC339A3C58419466CEAEEF7F632653266D0E1236431A950CFE52A ^ 2 : ℕ) : Fp) =
      ((0xC6047F9441ED7D6D3045406E95C07CD85C778E4B8CEF3CA7ABAC09B95C709EE5 ^ 3 + 7 : ℕ) : Fp) := by
    rw [ZMod.natCast_eq_natCast_iff']
    decide +kernel
  rw [Nat.cast_add, Nat.cast_pow, Nat.cast_pow] at this
  exact this

/-- Three keys in order: the generator (02 79…), another point (02 C6…) and the negated generator
(03 79…). -/
example : ∃ P Q R : Pt, P ≠ 0 ∧ Q ≠ 0 ∧ R ≠ 0 ∧
    (ecPubkeyCmp (some (keyObject P)) (some (keyObject Q))).ret < 0 ∧
    (ecPubkeyCmp (some (keyObject Q)) (some (keyObject R))).ret < 0 ∧
    (ecPubkeyCmp (some (keyObject P)) (some (keyObject R))).ret < 0 := by
  have hn : ptY (-G) % 2 = 1 := by rw [ptY_neg G_ne_zero, show ptY G % 2 = 0 by decide +kernel]
  have hQ : (.some _ _ (neg7_not_cube.nonsingular caseX_eq) : Pt) ≠ 0 := WeierstrassCurve.Affine.Point.some_ne_zero _
  have hR : -G ≠ 0 := neg_ne_zero.2 G_ne_zero
  have h1 := (C03_cmp_lex G_ne_zero hQ).1.2 (by decide +kernel)
  have h2 := (C03_cmp_lex hQ hR).1.2 (by
    rw [show compressed (.some _ _ (neg7_not_cube.nonsingular caseX_eq) : Pt) = 2 :: beBytes 32
      0xC6047F9441ED7D6D3045406E95C07CD85C778E4B8CEF3CA7ABAC09B95C709EE5 by decide +kernel,
      compressed, if_pos hn, List.cons_lt_cons_iff]
    left; decide)
  exact ⟨_, _, _, G_ne_zero, hQ, hR, h1, h2, C03_cmp_trans G_ne_zero hQ hR h1 h2⟩

/-- What `secp256k1_ec_pubkey_cmp` sees as no key: a NULL pointer, or an object whose first
coordinate is zero (such as the all-zero object left by failing calls). -/
def InvalidKey (k : Option Bytes) : Prop := k = none ∨ ∃ b, k = some b ∧ leNat (b.take 32) = 0

theorem cmpKey_invalid {k : Option Bytes} (h : InvalidKey k) :
    ecPubkeyCmpKey k = (zeros 33, 1) := by
  have hc : (ecCompressed &&& flagsBitCompression ≠ 0) = True := by decide
  have hm : (ecCompressed &&& flagsTypeMask ≠ flagsTypeCompression) = False := by decide
  rcases h with rfl | ⟨b, rfl, hb⟩
  · rfl
  · have hq : (pubkeyLoad b).2 = false := by simp [pubkeyLoad, hb]
    simp only [ecPubkeyCmpKey, ecPubkeySerialize, hc, hm, if_true, if_false, hq, ge_iff_le, le_refl,
      not_true]
    rfl

/-- An invalid key triggers the callback and compares below every valid key, on either side; two
invalid keys trigger it twice and compare equal. -/
theorem C03_cmp_invalid {k k' : Option Bytes} (hk : InvalidKey k) (hk' : InvalidKey k') {P : Pt}
    (hP : P ≠ 0) :
    (ecPubkeyCmp k (some (keyObject P))).ret < 0 ∧
    (ecPubkeyCmp k (some (keyObject P))).illegal = 1 ∧
    0 < (ecPubkeyCmp (some (keyObject P)) k).ret ∧
    (ecPubkeyCmp (some (keyObject P)) k).illegal = 1 ∧
    (ecPubkeyCmp k k').ret = 0 ∧ (ecPubkeyCmp k k').illegal = 2 := by
  simp only [ecPubkeyCmp, cmpKey_valid hP, cmpKey_invalid hk, cmpKey_invalid hk']
  obtain ⟨h1, -, -⟩ := memcmpVar_lt (k := 33) (a := zeros 33) (b := compressed P) (by simp [zeros])
    (compressed_length P)
  obtain ⟨-, -, h3⟩ := memcmpVar_lt (k := 33) (a := compressed P) (b := zeros 33)
    (compressed_length P) (by simp [zeros])
  have hlt : zeros 33 < compressed P := by
    rw [show zeros 33 = 0 :: zeros 32 from rfl, compressed, List.cons_lt_cons_iff]
    left; split <;> decide
  exact ⟨h1.2 hlt, trivial, h3.2 hlt, trivial, by decide, trivial⟩

/-- NULL, the zero object and the generator. -/
example := C03_cmp_invalid (k := none) (k' := some (zeros 64)) (Or.inl rfl) (Or.inr ⟨_, rfl, by decide +kernel⟩)
  G_ne_zero

/-- Two different keys: the generator and its negative, told apart by the parity byte. -/
example : ∃ P Q : Pt, P ≠ 0 ∧ Q ≠ 0 ∧ P ≠ Q ∧
    (ecPubkeyCmp (some (keyObject P)) (some (keyObject Q))).ret < 0 ∧ InvalidKey (some (zeros 64)) := by
  have hx : compressed G = 2 :: beBytes 32 gx := by decide +kernel
  have hy : ptY G % 2 = 0 := by decide +kernel
  have hn : ptY (-G) % 2 = 1 := by rw [ptY_neg G_ne_zero, hy]
  have hlt : compressed G < compressed (-G) := by
    rw [hx, compressed, if_pos hn, List.cons_lt_cons_iff]; left; decide
  refine ⟨G, -G, G_ne_zero, neg_ne_zero.2 G_ne_zero, fun h => ?_, ?_,
    Or.inr ⟨_, rfl, by decide +kernel⟩⟩
  · rw [← h, hy] at hn; cases hn
  · exact (C03_cmp_lex G_ne_zero (neg_ne_zero.2 G_ne_zero)).1.2 hlt

end Secp
