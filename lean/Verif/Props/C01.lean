import Verif.Proof.Parse

/-! # C01: public key parsing accepts exactly the SEC 1 encodings of curve points -/

namespace Secp
open Model Spec

/-- `secp256k1_ec_pubkey_parse` returns 1 exactly on the byte strings that satisfy `Sec1Valid`
(prefix, ranges, curve equation, parity), for every length and every old content of the key object;
otherwise it returns 0.  The illegal callback is not called. -/
theorem C01_parse_accepts_iff (old input : Bytes) :
    let o := ecPubkeyParse (some old) (some input)
    (o.ret = 1 ↔ Sec1Valid input) ∧ (o.ret = 0 ↔ ¬ Sec1Valid input) ∧ o.illegal = 0 := by
  have key : (eckeyPubkeyParse input).2 = true ↔ Sec1Valid input := by
    rw [sec1Valid_iff]
    refine ⟨parse_sound, ?_⟩
    rintro ⟨P, hP, rfl | rfl | rfl⟩
    · exact (parse_compressed hP).1
    · exact (parse_long hP (Or.inl rfl)).1
    · exact (parse_long hP (Or.inr rfl)).1
  rw [← key]
  simp only [ecPubkeyParse, geIsInCorrectSubgroup]
  cases (eckeyPubkeyParse input).2 <;> simp

/-- On success the key object holds exactly the encoded point. -/
theorem C01_parse_value (old : Bytes) {P : Pt} (hP : P ≠ 0) {input : Bytes}
    (h : input = compressed P ∨ input = uncompressed P ∨ input = hybrid P) :
    ecPubkeyParse (some old) (some input) = ⟨1, 0, some (keyObject P)⟩ := by
  have key : (eckeyPubkeyParse input).2 = true ∧ GeRep 7 (eckeyPubkeyParse input).1 P := by
    rcases h with rfl | rfl | rfl
    · exact parse_compressed hP
    · exact parse_long hP (Or.inl rfl)
    · exact parse_long hP (Or.inr rfl)
  simp only [ecPubkeyParse, geIsInCorrectSubgroup, key.1]
  rw [pubkeySave_rep key.2 hP]
  rfl

/-- Every accepted string is the compressed, uncompressed or hybrid encoding of a point, and the
object then holds that point. -/
theorem C01_parse_sound (old input : Bytes)
    (h : (ecPubkeyParse (some old) (some input)).ret ≠ 0) :
    ∃ P : Pt, P ≠ 0 ∧ (input = compressed P ∨ input = uncompressed P ∨ input = hybrid P) ∧
      ecPubkeyParse (some old) (some input) = ⟨1, 0, some (keyObject P)⟩ := by
  have := (C01_parse_accepts_iff old input).2.1
  obtain ⟨P, hP, e⟩ := (sec1Valid_iff input).1 (not_not.1 (fun hv => h (this.2 hv)))
  exact ⟨P, hP, e, C01_parse_value old hP e⟩

/-- On failure the key object is all zero. -/
theorem C01_parse_failure (old input : Bytes) (h : ¬ Sec1Valid input) :
    ecPubkeyParse (some old) (some input) = ⟨0, 0, some (List.replicate 64 0)⟩ := by
  have hk : (eckeyPubkeyParse input).2 = false := by
    rw [Bool.eq_false_iff]
    exact fun hk => h ((sec1Valid_iff input).2 (parse_sound hk))
  simp only [ecPubkeyParse, hk]
  rfl

/-- The three encodings of the generator are accepted, its compressed encoding is the one of
SEC 2. -/
example : G ≠ 0 ∧ compressed G = 2 :: beBytes 32 gx := by
  refine ⟨G_ne_zero, ?_⟩
  decide +kernel

/-- Prefix 05, x = 5 (not on the curve), a truncated string and the empty string are rejected. -/
example : ¬ Sec1Valid (5 :: beBytes 32 gx) ∧ ¬ Sec1Valid (2 :: beBytes 32 5) ∧
    ¬ Sec1Valid (2 :: beBytes 31 gx) ∧ ¬ Sec1Valid [] := by
  have h := fun b => (C01_parse_accepts_iff [] b).2.1
  refine ⟨(h _).1 ?_, (h _).1 ?_, (h _).1 ?_, (h _).1 ?_⟩ <;> decide +kernel

end Secp
