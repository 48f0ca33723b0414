import Verif.Props.C01

/-! # C02: public key serialization and parsing are inverse -/

namespace Secp
open Model Spec

/-- Serializing the key `P` in compressed form into any buffer of declared size `len ≥ 33`: returns
1, writes the 33 bytes of the SEC 1 encoding, zeroes the rest of the declared size, leaves what lies
beyond it alone and reports length 33. -/
theorem C02_serialize_compressed {P : Pt} (hP : P ≠ 0) (out : Bytes) {len : ℕ} (h33 : 33 ≤ len)
    (hlen : len ≤ out.length) :
    ecPubkeySerialize (some out) (some len) (some (keyObject P)) ecCompressed =
      ⟨1, 0, (some (compressed P ++ List.replicate (len - 33) 0 ++ out.drop len), some 33)⟩ := by
  obtain ⟨h1, h2, -⟩ := pubkeyLoad_obj hP
  have hput : put out 0 (zeros len) = zeros len ++ out.drop len := by
    simp [put, zeros]
  have hl : 33 ≤ (zeros len ++ out.drop len).length := by simp [zeros]; omega
  have hd : (zeros len ++ out.drop len).drop 33 = List.replicate (len - 33) 0 ++ out.drop len := by
    rw [List.drop_append_of_le_length (by simp [zeros]; omega)]; simp [zeros]
  have hc : (ecCompressed &&& flagsBitCompression ≠ 0) = True := by decide
  have hm : (ecCompressed &&& flagsTypeMask ≠ flagsTypeCompression) = False := by decide
  simp only [ecPubkeySerialize, hc, hm, if_true, if_false, ge_iff_le, h33, not_true, h1, hput]
  rw [show decide True = true from rfl, serialize_compressed h2 hP hl, hd]
  simp

/-- The generator into 40 bytes. -/
example := C02_serialize_compressed G_ne_zero (List.replicate 65 7) (len := 40) (by decide) (by decide)

/-- The same for the uncompressed form and `len ≥ 65`. -/
theorem C02_serialize_uncompressed {P : Pt} (hP : P ≠ 0) (out : Bytes) {len : ℕ} (h65 : 65 ≤ len)
    (hlen : len ≤ out.length) :
    ecPubkeySerialize (some out) (some len) (some (keyObject P)) ecUncompressed =
      ⟨1, 0, (some (uncompressed P ++ List.replicate (len - 65) 0 ++ out.drop len), some 65)⟩ := by
  obtain ⟨h1, h2, -⟩ := pubkeyLoad_obj hP
  have hput : put out 0 (zeros len) = zeros len ++ out.drop len := by
    simp [put, zeros]
  have hl : 65 ≤ (zeros len ++ out.drop len).length := by simp [zeros]; omega
  have hd : (zeros len ++ out.drop len).drop 65 = List.replicate (len - 65) 0 ++ out.drop len := by
    rw [List.drop_append_of_le_length (by simp [zeros]; omega)]; simp [zeros]
  have hc : (ecUncompressed &&& flagsBitCompression ≠ 0) = False := by decide
  have hm : (ecUncompressed &&& flagsTypeMask ≠ flagsTypeCompression) = False := by decide
  simp only [ecPubkeySerialize, hc, hm, if_true, if_false, ge_iff_le, h65, not_true, h1, hput]
  rw [show decide False = false from rfl, serialize_uncompressed h2 hP hl, hd]
  simp

/-- The generator into 65 bytes. -/
example := C02_serialize_uncompressed G_ne_zero (List.replicate 65 7) (len := 65) (by decide) (by decide)

/-- Serialize, then parse: every key object comes back. -/
theorem C02_parse_serialize {P : Pt} (hP : P ≠ 0) (old out : Bytes) {len : ℕ}
    (hlen : len ≤ out.length) {flags : UInt32}
    (hf : (flags = ecCompressed ∧ 33 ≤ len) ∨ (flags = ecUncompressed ∧ 65 ≤ len)) :
    ∃ out' len', ecPubkeySerialize (some out) (some len) (some (keyObject P)) flags =
        ⟨1, 0, (some out', some len')⟩ ∧
      ecPubkeyParse (some old) (some (out'.take len')) = ⟨1, 0, some (keyObject P)⟩ := by
  rcases hf with ⟨rfl, h⟩ | ⟨rfl, h⟩
  · refine ⟨_, _, C02_serialize_compressed hP out h hlen, ?_⟩
    rw [List.append_assoc, List.take_left' (compressed_length P)]
    exact C01_parse_value old hP (Or.inl rfl)
  · refine ⟨_, _, C02_serialize_uncompressed hP out h hlen, ?_⟩
    rw [List.append_assoc, List.take_left' (uncompressed_length P)]
    exact C01_parse_value old hP (Or.inr (Or.inl rfl))

/-- The generator in both formats. -/
example := C02_parse_serialize G_ne_zero [] (List.replicate 65 7) (len := 33) (by decide) (Or.inl ⟨rfl, by decide⟩)
example := C02_parse_serialize G_ne_zero [] (List.replicate 65 7) (len := 65) (by decide) (Or.inr ⟨rfl, by decide⟩)

/-- Parse, then serialize: every accepted 33-byte string and every accepted 65-byte string with
prefix 04 comes back. -/
theorem C02_serialize_parse (old input : Bytes)
    (h : (ecPubkeyParse (some old) (some input)).ret = 1) (out : Bytes) {len : ℕ}
    (hlen : len ≤ out.length) :
    ∃ obj, (ecPubkeyParse (some old) (some input)).val = some obj ∧
      (input.length = 33 → 33 ≤ len →
        ∃ rest, ecPubkeySerialize (some out) (some len) (some obj) ecCompressed =
          ⟨1, 0, (some (input ++ rest), some 33)⟩) ∧
      (input.headD 0 = 4 → 65 ≤ len →
        ∃ rest, ecPubkeySerialize (some out) (some len) (some obj) ecUncompressed =
          ⟨1, 0, (some (input ++ rest), some 65)⟩) := by
  obtain ⟨P, hP, hi, e⟩ := C01_parse_sound old input (by rw [h]; decide)
  refine ⟨keyObject P, by rw [e], ?_, ?_⟩
  · intro h33 hl
    have : input = compressed P := by
      rcases hi with h | h | h
      · exact h
      · rw [h, uncompressed_length] at h33; omega
      · rw [h, hybrid_length] at h33; omega
    subst this
    exact ⟨_, by rw [C02_serialize_compressed hP out hl hlen, List.append_assoc]⟩
  · intro h4 hl
    have : input = uncompressed P := by
      rcases hi with h | h | h
      · exfalso; rw [h] at h4; unfold compressed at h4; split at h4 <;> simp at h4
      · exact h
      · exfalso; rw [h] at h4; unfold hybrid at h4; split at h4 <;> simp at h4
    subst this
    exact ⟨_, by rw [C02_serialize_uncompressed hP out hl hlen, List.append_assoc]⟩

/-- The compressed generator is accepted, so the theorem applies to it. -/
example : ∃ obj rest, ecPubkeySerialize (some (List.replicate 33 7)) (some 33) (some obj) ecCompressed =
    ⟨1, 0, (some (compressed G ++ rest), some 33)⟩ := by
  have h : (ecPubkeyParse (some []) (some (compressed G))).ret = 1 := by
    obtain ⟨o, l, h1, h2⟩ := C02_parse_serialize G_ne_zero [] (List.replicate 33 7) (len := 33) (by decide)
      (Or.inl ⟨rfl, by decide⟩)
    rw [C02_serialize_compressed G_ne_zero (List.replicate 33 7) (len := 33) (by decide) (by decide)] at h1
    obtain ⟨rfl, rfl⟩ : compressed G ++ List.replicate (33 - 33) 0 ++ List.drop 33 (List.replicate 33 7) = o ∧
        33 = l := by
      simpa using h1
    have e : (compressed G ++ List.replicate (33 - 33) 0 ++ List.drop 33 (List.replicate 33 7)).take 33 =
        compressed G := by decide +kernel
    rw [e] at h2
    rw [h2]
  obtain ⟨obj, _, h1, _⟩ := C02_serialize_parse [] _ h (List.replicate 33 7) (len := 33) (by decide)
  obtain ⟨rest, h2⟩ := h1 (by decide +kernel) (by decide)
  exact ⟨obj, rest, h2⟩

/-- A too small declared output length is an illegal argument: one callback call, return 0, nothing
written. -/
theorem C02_serialize_small (out pubkey : Option Bytes) {len : ℕ} :
    (len < 33 → ecPubkeySerialize out (some len) pubkey ecCompressed = ⟨0, 1, (out, some len)⟩) ∧
    (len < 65 → ecPubkeySerialize out (some len) pubkey ecUncompressed =
      ⟨0, 1, (out, some len)⟩) := by
  have hc : (ecCompressed &&& flagsBitCompression ≠ 0) = True := by decide
  have hc' : (ecUncompressed &&& flagsBitCompression ≠ 0) = False := by decide
  constructor
  · intro h
    simp only [ecPubkeySerialize, hc, if_true, ge_iff_le, not_le, h]; rfl
  · intro h
    simp only [ecPubkeySerialize, hc', if_false, ge_iff_le, not_le, h, if_true]; rfl

/-- 32 bytes are too few for the one format, 64 for the other. -/
example := (C02_serialize_small (some []) (some (keyObject G)) (len := 32)).1 (by decide)
example := (C02_serialize_small (some []) (some (keyObject G)) (len := 64)).2 (by decide)

/-- The generator, a 65-byte buffer, both formats. -/
example : ∃ (P : Pt) (out : Bytes), P ≠ 0 ∧ 65 ≤ out.length ∧ 33 ≤ 65 :=
  ⟨G, List.replicate 65 7, G_ne_zero, by simp, by omega⟩

end Secp
