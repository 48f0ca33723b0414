import Verif.Proof.DerSer

/-! # C07: compact signature parsing and serialization -/

namespace Secp
open Model Spec

theorem parseCompact_eq {input : Bytes} (hl : input.length = 64) (old : Bytes) :
    ecdsaSignatureParseCompact (some old) (some input) =
      if beNat (input.take 32) < n ∧ beNat (input.drop 32) < n then
        ⟨1, 0, some (sigObject ((beNat (input.take 32) : ℕ) : Fn)
          ((beNat (input.drop 32) : ℕ) : Fn))⟩
      else ⟨0, 0, some (zeros 64)⟩ := by
  have e : (input.drop 32).take 32 = input.drop 32 := List.take_of_length_le (by simp [hl])
  simp only [ecdsaSignatureParseCompact, scSetB32, e]
  by_cases h1 : beNat (input.take 32) < n <;> by_cases h2 : beNat (input.drop 32) < n <;>
    simp [h1, h2, signatureSave_eq, not_le.2, not_lt.1] <;> omega

/-- Parsing returns 1 iff both halves are below `n`, and then the object holds them; else it returns 0
and the object is all zero. -/
theorem C07_parse_compact {input : Bytes} (hl : input.length = 64) (old : Bytes) :
    (beNat (input.take 32) < n ∧ beNat (input.drop 32) < n →
      ecdsaSignatureParseCompact (some old) (some input) =
        ⟨1, 0, some (sigObject ((beNat (input.take 32) : ℕ) : Fn)
          ((beNat (input.drop 32) : ℕ) : Fn))⟩) ∧
    (¬ (beNat (input.take 32) < n ∧ beNat (input.drop 32) < n) →
      ecdsaSignatureParseCompact (some old) (some input) =
        ⟨0, 0, some (List.replicate 64 0)⟩) := by
  rw [parseCompact_eq hl]
  exact ⟨fun h => if_pos h, fun h => if_neg h⟩

/-- The pair `(5, 7)` is accepted, `(5, n)` is not. -/
example := (C07_parse_compact (input := beBytes 32 5 ++ beBytes 32 7) (by decide +kernel) []).1 (by decide +kernel)
example := (C07_parse_compact (input := beBytes 32 5 ++ beBytes 32 n) (by decide +kernel) []).2 (by decide +kernel)

/-- Serializing writes `r` and `s` in big endian, 32 bytes each. -/
theorem C07_serialize_compact (r s : Fn) {out : Bytes} (ho : out.length = 64) :
    ecdsaSignatureSerializeCompact (some out) (some (sigObject r s)) =
      ⟨1, 0, some (beBytes 32 r.val ++ beBytes 32 s.val)⟩ := by
  simp only [ecdsaSignatureSerializeCompact, signatureLoad_obj]
  rw [← List.nil_append out, put_at (k := 0) rfl, put_at (by simp [scGetB32_length])]
  simp only [List.nil_append, List.drop_drop, scGetB32_length]
  rw [List.drop_eq_nil_of_le (by omega), List.append_nil]
  rfl

example := C07_serialize_compact 5 (-7) (out := zeros 64) (by decide +kernel)

/-- Accepted bytes are given back by serialization. -/
theorem C07_parse_serialize {input : Bytes} (hl : input.length = 64) (old : Bytes) {out obj : Bytes}
    (ho : out.length = 64)
    (h : ecdsaSignatureParseCompact (some old) (some input) = ⟨1, 0, some obj⟩) :
    ecdsaSignatureSerializeCompact (some out) (some obj) = ⟨1, 0, some input⟩ := by
  have hp := C07_parse_compact hl old
  by_cases hc : beNat (input.take 32) < n ∧ beNat (input.drop 32) < n
  · rw [hp.1 hc] at h
    simp only [Out.mk.injEq, Option.some.injEq, true_and] at h
    subst h
    rw [C07_serialize_compact _ _ ho, ZMod.val_natCast, ZMod.val_natCast, Nat.mod_eq_of_lt hc.1,
      Nat.mod_eq_of_lt hc.2, beBytes_beNat' (by simp [hl]), beBytes_beNat' (by simp [hl]),
      List.take_append_drop]
  · rw [hp.2 hc] at h
    simp at h

/-- The bytes of the pair `(5, n - 1)`. -/
example : ∃ obj, ecdsaSignatureSerializeCompact (some (zeros 64)) (some obj) =
    ⟨1, 0, some (beBytes 32 5 ++ beBytes 32 (n - 1))⟩ :=
  ⟨_, C07_parse_serialize (by decide +kernel) [] (by decide +kernel)
    ((C07_parse_compact (by decide +kernel) []).1 (by decide +kernel))⟩

/-- Every signature survives serializing and parsing. -/
theorem C07_serialize_parse (r s : Fn) (old : Bytes) {out : Bytes} (ho : out.length = 64) {b : Bytes}
    (h : ecdsaSignatureSerializeCompact (some out) (some (sigObject r s)) = ⟨1, 0, some b⟩) :
    ecdsaSignatureParseCompact (some old) (some b) = ⟨1, 0, some (sigObject r s)⟩ := by
  rw [C07_serialize_compact r s ho] at h
  simp only [Out.mk.injEq, Option.some.injEq, true_and] at h
  subst h
  have hr : (beBytes 32 r.val ++ beBytes 32 s.val).take 32 = beBytes 32 r.val :=
    List.take_left' (Hash.beBytes_length _ _)
  have hs : (beBytes 32 r.val ++ beBytes 32 s.val).drop 32 = beBytes 32 s.val :=
    List.drop_left' (Hash.beBytes_length _ _)
  have vr : beNat (beBytes 32 r.val) = r.val := by
    rw [beNat_beBytes, Nat.mod_eq_of_lt (fn_lt r)]
  have vs : beNat (beBytes 32 s.val) = s.val := by
    rw [beNat_beBytes, Nat.mod_eq_of_lt (fn_lt s)]
  rw [(C07_parse_compact (by simp [Hash.beBytes_length]) old).1 (by
    rw [hr, hs, vr, vs]; exact ⟨ZMod.val_lt r, ZMod.val_lt s⟩), hr, hs, vr, vs,
    ZMod.natCast_zmod_val, ZMod.natCast_zmod_val]

/-- The pair `(5, -7)`. -/
example : ∃ b, ecdsaSignatureParseCompact (some []) (some b) = ⟨1, 0, some (sigObject 5 (-7))⟩ :=
  ⟨_, C07_serialize_parse 5 (-7) [] (out := zeros 64) (by decide +kernel)
    (C07_serialize_compact 5 (-7) (by decide +kernel))⟩

/-- Both sides of the boundary: the halves `n-1, 0` and `0, n`. -/
example : (let i := beBytes 32 (n - 1) ++ beBytes 32 0;
      i.length = 64 ∧ beNat (i.take 32) < n ∧ beNat (i.drop 32) < n) ∧
    (let j := beBytes 32 0 ++ beBytes 32 n;
      j.length = 64 ∧ ¬ (beNat (j.take 32) < n ∧ beNat (j.drop 32) < n)) := by
  decide +kernel

end Secp
