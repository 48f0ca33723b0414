import Verif.Props.C05

/-! # C06: DER serialization is minimal, reports sizes and round-trips

`sigObject r s` is the signature object that holds `r` and `s`. -/

namespace Secp
open Model Spec

/-- For every signature there is one DER encoding of at most 72 bytes, such that for every buffer of
the claimed size: if the size suffices, the call returns 1, writes exactly the encoding at the start
of the buffer and reports its length; else it returns 0, writes nothing and reports the length. -/
theorem C06_serialize_der (r s : Fn) :
    ∃ d : Bytes, DerSignature d r.val s.val ∧ 8 ≤ d.length ∧ d.length ≤ 72 ∧
      ∀ (out : Bytes) (len : ℕ), len ≤ out.length →
        (d.length ≤ len →
          ecdsaSignatureSerializeDer (some out) (some len) (some (sigObject r s)) =
            ⟨1, 0, (some (d ++ out.drop d.length), some d.length)⟩) ∧
        (len < d.length →
          ecdsaSignatureSerializeDer (some out) (some len) (some (sigObject r s)) =
            ⟨0, 0, (some out, some d.length)⟩) := by
  refine ⟨derEncoding r s, derEncoding_sig r s, (derEncoding_bounds r s).1, (derEncoding_bounds r s).2,
    ?_⟩
  intro out len hlen
  unfold ecdsaSignatureSerializeDer
  simp only [signatureLoad_obj, ecdsaSigSerialize_eq]
  constructor
  · intro h
    rw [if_neg (by omega)]
    rfl
  · intro h
    rw [if_pos h]
    rfl

/-- Serializing and parsing the reported bytes gives back the object. -/
theorem C06_roundtrip (r s : Fn) (out old : Bytes) (len : ℕ) (hlen : len ≤ out.length)
    {out' : Bytes} {len' : ℕ}
    (h : ecdsaSignatureSerializeDer (some out) (some len) (some (sigObject r s)) =
      ⟨1, 0, (some out', some len')⟩) :
    ecdsaSignatureParseDer (some old) (some (out'.take len')) =
      some ⟨1, 0, some (sigObject r s)⟩ := by
  obtain ⟨d, hd, -, h72, h1⟩ := C06_serialize_der r s
  have hlt := h1 out len hlen
  by_cases hc : d.length ≤ len
  · rw [hlt.1 hc] at h
    simp only [Out.mk.injEq, Prod.mk.injEq, Option.some.injEq, true_and] at h
    obtain ⟨rfl, rfl⟩ := h
    rw [List.take_left' rfl, C05_parse_der_accepts (by omega)]
    refine ⟨_, _, hd, ?_⟩
    rw [show (if 0 ≤ (r.val : ℤ) ∧ (r.val : ℤ) < n then ((r.val : ℤ) : Fn) else 0) = r from
      derScalar_val r, show (if 0 ≤ (s.val : ℤ) ∧ (s.val : ℤ) < n then ((s.val : ℤ) : Fn) else 0) = s
      from derScalar_val s]
  · rw [hlt.2 (by omega)] at h
    simp at h

/-- The encoding is canonical: the only accepted bytes for integers in range are the ones that the
serializer writes. -/
theorem C06_canonical {input : Bytes} {R S : ℤ} (h : DerSignature input R S) (hR : 0 ≤ R ∧ R < n)
    (hS : 0 ≤ S ∧ S < n) (out : Bytes) (len : ℕ) (hlen : len ≤ out.length)
    (hbuf : input.length ≤ len) :
    ecdsaSignatureSerializeDer (some out) (some len) (some (sigObject (R : Fn) (S : Fn))) =
      ⟨1, 0, (some (input ++ out.drop input.length), some input.length)⟩ := by
  have hv : ∀ z : ℤ, 0 ≤ z ∧ z < n → (((z : Fn).val : ℕ) : ℤ) = z := by
    intro z hz
    obtain ⟨m, rfl⟩ := Int.eq_ofNat_of_zero_le hz.1
    rw [Int.cast_natCast, ZMod.val_natCast, Nat.mod_eq_of_lt (by exact_mod_cast hz.2)]
  obtain ⟨d, hd, -, -, h1⟩ := C06_serialize_der (R : Fn) (S : Fn)
  rw [hv R hR, hv S hS] at hd
  have := derSignature_unique hR.1 hS.1 hd h
  subst this
  exact (h1 out len hlen).1 hbuf

/-- `r = 1`, `s = 128` into a 9-byte buffer (exactly enough), and into 8 bytes. -/
example : ecdsaSignatureSerializeDer (some (List.replicate 10 7)) (some 9) (some (sigObject 1 128)) =
      ⟨1, 0, (some [0x30, 7, 2, 1, 1, 2, 2, 0, 128, 7], some 9)⟩ ∧
    ecdsaSignatureSerializeDer (some (List.replicate 10 7)) (some 8) (some (sigObject 1 128)) =
      ⟨0, 0, (some (List.replicate 10 7), some 9)⟩ := by
  decide +kernel

end Secp
