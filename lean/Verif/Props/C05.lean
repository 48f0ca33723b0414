import Verif.Proof.DerSer

/-! # C05: DER signature parsing accepts exactly strict DER and reads the right numbers

`DerSignature input R S` (`Verif/Spec/Der.lean`): `input` is the DER encoding of the SEQUENCE of the
integers `R` and `S`. -/

namespace Secp
open Model Spec

/-- The parser returns 1 exactly on the DER encodings; the object then holds each integer, or 0 in
place of an integer that is negative or not below `n`. -/
theorem C05_parse_der_accepts {input : Bytes} (hi : input.length < 2 ^ 64) (old obj : Bytes) :
    ecdsaSignatureParseDer (some old) (some input) = some ⟨1, 0, some obj⟩ ↔
      ∃ R S : ℤ, DerSignature input R S ∧
        obj = sigObject (if 0 ≤ R ∧ R < n then (R : Fn) else 0)
          (if 0 ≤ S ∧ S < n then (S : Fn) else 0) := by
  change _ ↔ ∃ R S : ℤ, DerSignature input R S ∧ obj = sigObject (derScalar R) (derScalar S)
  unfold ecdsaSignatureParseDer
  simp only
  constructor
  · intro h
    cases hp : ecdsaSigParse input with
    | ub => rw [hp] at h; cases h
    | fail => rw [hp] at h; simp at h
    | ok q =>
      obtain ⟨r, s⟩ := q
      rw [hp] at h
      obtain ⟨R, S, h1, rfl, rfl⟩ := (ecdsaSigParse_iff hi r s).1 hp
      have h := congrArg Out.val (Option.some.inj h)
      exact ⟨R, S, h1, (Option.some.inj h).symm⟩
  · rintro ⟨R, S, h1, h2⟩
    rw [(ecdsaSigParse_iff hi _ _).2 ⟨R, S, h1, rfl, rfl⟩, h2]
    simp only [signatureSave_eq]

/-- On every other input it returns 0 and the object is all zero. -/
theorem C05_parse_der_rejects {input : Bytes} (hi : input.length < 2 ^ 64) (old : Bytes) :
    ecdsaSignatureParseDer (some old) (some input) = some ⟨0, 0, some (List.replicate 64 0)⟩ ↔
      ¬ ∃ R S : ℤ, DerSignature input R S := by
  unfold ecdsaSignatureParseDer
  simp only
  have h0 := ecdsaSigParse_ne_ub hi
  cases hp : ecdsaSigParse input with
  | ub => exact absurd hp h0
  | ok q =>
    obtain ⟨r, s⟩ := q
    obtain ⟨R, S, h1, -, -⟩ := (ecdsaSigParse_iff hi r s).1 hp
    constructor
    · intro h; simp at h
    · intro h; exact absurd ⟨R, S, h1⟩ h
  | fail =>
    refine ⟨fun _ => ?_, fun _ => rfl⟩
    rintro ⟨R, S, h1⟩
    rw [(ecdsaSigParse_iff hi _ _).2 ⟨R, S, h1, rfl, rfl⟩] at hp
    cases hp

/-- The parser never reads behind the end of the input (`none` in the model), on any input. -/
theorem C05_parse_der_no_overread {input : Bytes} (hi : input.length < 2 ^ 64) (old : Bytes) :
    ecdsaSignatureParseDer (some old) (some input) ≠ none := by
  unfold ecdsaSignatureParseDer
  simp only
  have h0 := ecdsaSigParse_ne_ub hi
  cases hp : ecdsaSigParse input with
  | ub => exact absurd hp h0
  | ok q => simp
  | fail => simp

/-- The DER encoding of the signature (1, 128): accepted; with a byte behind it: rejected. -/
example : DerSignature [0x30, 7, 2, 1, 1, 2, 2, 0, 128] 1 128 ∧
    ¬ ∃ R S : ℤ, DerSignature [0x30, 7, 2, 1, 1, 2, 2, 0, 128, 0] R S := by
  constructor
  · refine ⟨[7], [2, 1, 1], [2, 2, 0, 128], ⟨[1], [1], Or.inl ⟨by decide, rfl⟩, ⟨by simp, by simp⟩,
      by decide, rfl⟩, ⟨[2], [0, 128], Or.inl ⟨by decide, rfl⟩, ⟨by simp, ?_⟩, by decide, rfl⟩,
      Or.inl ⟨by decide, rfl⟩, rfl⟩
    intro a b t h
    cases h
    decide
  · rw [← C05_parse_der_rejects (by decide) []]
    decide +kernel

/-- A negative `R` and a 33-byte `S`: accepted, both read as 0. -/
example : ecdsaSignatureParseDer (some []) (some ([0x30, 0x26, 2, 1, 0xff, 2, 33, 1] ++
    List.replicate 32 0)) = some ⟨1, 0, some (List.replicate 64 0)⟩ := by
  decide +kernel

end Secp
