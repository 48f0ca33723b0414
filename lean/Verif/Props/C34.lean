import Verif.Proof.MusigSession

/-! # C34: MuSig wire objects round-trip -/

namespace Secp
open Model Spec

seal keyObject beBytes compressed

/-- BIP-327, cpoint_ext: a compressed point, or 33 zero bytes for infinity. -/
def ExtValid (b : Bytes) : Prop := Sec1Valid b ∨ b = List.replicate 33 0

theorem sec1Valid_33 {b : Bytes} (hl : b.length = 33) : Sec1Valid b ↔ ∃ P : Pt, P ≠ 0 ∧ b = compressed P := by
  rw [sec1Valid_iff]
  constructor
  · rintro ⟨P, hP, e | e | e⟩
    · exact ⟨P, hP, e⟩
    · rw [e] at hl; simp [uncompressed, Hash.beBytes_length] at hl
    · rw [e] at hl; simp [hybrid, Hash.beBytes_length] at hl
  · rintro ⟨P, hP, e⟩
    exact ⟨P, hP, Or.inl e⟩

theorem extValid_iff {b : Bytes} (hl : b.length = 33) : ExtValid b ↔ ∃ P : Pt, b = compressedExt P := by
  unfold ExtValid
  rw [sec1Valid_33 hl]
  constructor
  · rintro (⟨P, hP, e⟩ | e)
    · exact ⟨P, by rw [compressedExt, if_neg hP]; exact e⟩
    · exact ⟨0, by rw [compressedExt, if_pos rfl]; exact e⟩
  · rintro ⟨P, e⟩
    by_cases hP : P = 0
    · rw [compressedExt, if_pos hP] at e; exact Or.inr e
    · rw [compressedExt, if_neg hP] at e; exact Or.inl ⟨P, hP, e⟩

theorem parse_false {b : Bytes} (h : ¬ Sec1Valid b) : (eckeyPubkeyParse b).2 = false := by
  rw [Bool.eq_false_iff]
  exact fun hk => h ((sec1Valid_iff b).2 (parse_sound hk))

theorem compressed_ne_zeros (P : Pt) : compressed P ≠ List.replicate 33 0 := by
  unfold compressed
  intro h
  rw [List.replicate_succ, List.cons.injEq] at h
  have := h.1
  split at this <;> exact absurd this (by decide)

theorem geParseExt_eq (b : Bytes) (P : Pt) (hb : b.take 33 = compressedExt P) :
    ∃ a, musigGeParseExt b = some a ∧ GeRep 7 a P := by
  have hl : 33 ≤ b.length := by
    have := congrArg List.length hb
    rw [compressedExt_length, List.length_take] at this
    omega
  unfold musigGeParseExt
  by_cases hP : P = 0
  · rw [compressedExt, if_pos hP] at hb
    have hz : memcmpVar b (zeros 33) 33 = 0 := (memcmpVar_take (k := 33) hl (by simp [zeros])).2 hb
    rw [if_pos hz, hP]
    exact ⟨_, rfl, geInfinity_rep 7⟩
  · rw [compressedExt, if_neg hP] at hb
    rw [if_neg (by rw [memcmpVar_take (k := 33) hl (by simp [zeros]), hb]; exact compressed_ne_zeros P), hb]
    obtain ⟨h1, h2⟩ := parse_compressed hP
    simp only [h1, geIsInCorrectSubgroup]
    exact ⟨_, rfl, h2⟩

theorem geParseExt_none {b : Bytes} (hl : 33 ≤ b.length) (h : ¬ ExtValid (b.take 33)) :
    musigGeParseExt b = none := by
  unfold musigGeParseExt
  rw [if_neg]
  · simp only [parse_false fun hv => h (Or.inl hv)]
    rfl
  · rw [memcmpVar_take (k := 33) hl (by simp [zeros])]
    exact fun hz => h (Or.inr hz)

theorem put_two {a b : Bytes} (ha : a.length = 33) (hb : b.length = 33) :
    put (put (zeros 66) 0 a) 33 b = a ++ b := by
  have h1 : put (zeros 66) 0 a = a ++ zeros 33 := by
    rw [put, List.take_zero, List.nil_append, ha]
    simp [zeros]
  rw [h1, put, List.take_left' ha, hb, List.drop_of_length_le, List.append_nil]
  simp [zeros, ha]

/-! ### Public nonces -/

/-- `secp256k1_musig_pubnonce_parse` accepts exactly two valid compressed points; then the object holds
them.  Otherwise it returns 0 and leaves the object alone. -/
theorem C34_pubnonce_parse (old : Bytes) {input : Bytes} (hl : input.length = 66) :
    (∀ A B : Pt, A ≠ 0 → B ≠ 0 → input = compressed A ++ compressed B →
      musigPubnonceParse (some old) (some input) = ⟨1, 0, some (pubnonceObject A B)⟩) ∧
    (Sec1Valid (input.take 33) ∧ Sec1Valid (input.drop 33) →
      ∃ A B : Pt, A ≠ 0 ∧ B ≠ 0 ∧ input = compressed A ++ compressed B) ∧
    (¬ (Sec1Valid (input.take 33) ∧ Sec1Valid (input.drop 33)) →
      musigPubnonceParse (some old) (some input) = ⟨0, 0, some old⟩) := by
  have hd : (input.drop 33).take 33 = input.drop 33 := List.take_of_length_le (by simp [hl])
  refine ⟨?_, ?_, ?_⟩
  · rintro A B hA hB rfl
    obtain ⟨a1, a2⟩ := parse_compressed hA
    obtain ⟨b1, b2⟩ := parse_compressed hB
    unfold musigPubnonceParse
    simp only
    rw [hd, List.take_left' (compressed_length A), List.drop_left' (compressed_length A)]
    simp only [a1, b1, geIsInCorrectSubgroup]
    rw [pubnonceSave_obj hA hB a2 b2]
    rfl
  · rintro ⟨h1, h2⟩
    obtain ⟨A, hA, e1⟩ := (sec1Valid_33 (by simp [hl])).1 h1
    obtain ⟨B, hB, e2⟩ := (sec1Valid_33 (by simp [hl])).1 h2
    exact ⟨A, B, hA, hB, by rw [← e1, ← e2, List.take_append_drop]⟩
  · intro h
    unfold musigPubnonceParse
    simp only
    rw [hd]
    by_cases h1 : Sec1Valid (input.take 33)
    · have h2 : ¬ Sec1Valid (input.drop 33) := fun h2 => h ⟨h1, h2⟩
      rw [parse_false h2]
      simp only [geIsInCorrectSubgroup]
      cases (eckeyPubkeyParse (input.take 33)).2 <;> rfl
    · rw [parse_false h1]
      rfl

example := (C34_pubnonce_parse [] (input := compressed G ++ compressed (-G)) (by simp [compressed_length])).1 G (-G)
  G_ne_zero (neg_ne_zero.2 G_ne_zero) rfl

/-- Every public nonce object is written as its two compressed points. -/
theorem C34_pubnonce_serialize {A B : Pt} (hA : A ≠ 0) (hB : B ≠ 0) {out : Bytes} (hl : out.length = 66) :
    musigPubnonceSerialize (some out) (some (pubnonceObject A B)) =
      ⟨1, 0, some (compressed A ++ compressed B)⟩ := by
  obtain ⟨a, b, e, ha, hb⟩ := pubnonceLoad_obj hA hB
  unfold musigPubnonceSerialize
  simp only
  rw [e]
  simp only
  rw [serialize_compressed ha hA (by simp [zeros]), serialize_compressed hb hB (by simp [zeros]),
    show (zeros 33).drop 33 = [] by simp [zeros], List.append_nil, List.append_nil]
  simp only
  have h0 : put out 0 (zeros 66) = zeros 66 := by
    rw [put, List.take_zero, List.nil_append, List.drop_of_length_le (by simp [zeros, hl]), List.append_nil]
  rw [h0, put_two (compressed_length A) (compressed_length B)]

/-- Serializing a public nonce and parsing the result gives back the same object; parsing 66 bytes with
success and serializing the object gives back the same bytes. -/
theorem C34_pubnonce_round_trip :
    (∀ (A B : Pt) (old out : Bytes), A ≠ 0 → B ≠ 0 → out.length = 66 → ∃ ser,
      musigPubnonceSerialize (some out) (some (pubnonceObject A B)) = ⟨1, 0, some ser⟩ ∧
      musigPubnonceParse (some old) (some ser) = ⟨1, 0, some (pubnonceObject A B)⟩) ∧
    (∀ old input out : Bytes, input.length = 66 → out.length = 66 →
      (musigPubnonceParse (some old) (some input)).ret ≠ 0 → ∃ obj,
      musigPubnonceParse (some old) (some input) = ⟨1, 0, some obj⟩ ∧
      musigPubnonceSerialize (some out) (some obj) = ⟨1, 0, some input⟩) := by
  constructor
  · intro A B old out hA hB hl
    refine ⟨_, C34_pubnonce_serialize hA hB hl, ?_⟩
    exact (C34_pubnonce_parse old (by rw [List.length_append, compressed_length, compressed_length])).1
      A B hA hB rfl
  · intro old input out hi ho h
    obtain ⟨p1, p2, p3⟩ := C34_pubnonce_parse old hi
    have hv : Sec1Valid (input.take 33) ∧ Sec1Valid (input.drop 33) := by
      by_contra hv
      rw [p3 hv] at h
      exact h rfl
    obtain ⟨A, B, hA, hB, e⟩ := p2 hv
    refine ⟨_, p1 A B hA hB e, ?_⟩
    rw [C34_pubnonce_serialize hA hB ho, e]

/-! ### Aggregate nonces -/

/-- `secp256k1_musig_aggnonce_parse` accepts exactly two extended points: compressed points or 33 zero
bytes.  Otherwise it returns 0 and leaves the object alone. -/
theorem C34_aggnonce_parse (old : Bytes) {input : Bytes} (hl : input.length = 66) :
    (∀ A B : Pt, input = compressedExt A ++ compressedExt B →
      musigAggnonceParse (some old) (some input) = ⟨1, 0, some (aggnonceObject A B)⟩) ∧
    (ExtValid (input.take 33) ∧ ExtValid (input.drop 33) →
      ∃ A B : Pt, input = compressedExt A ++ compressedExt B) ∧
    (¬ (ExtValid (input.take 33) ∧ ExtValid (input.drop 33)) →
      musigAggnonceParse (some old) (some input) = ⟨0, 0, some old⟩) := by
  have hd : (input.drop 33).take 33 = input.drop 33 := List.take_of_length_le (by simp [hl])
  refine ⟨?_, ?_, ?_⟩
  · rintro A B rfl
    obtain ⟨a, ea, ra⟩ := geParseExt_eq (compressedExt A ++ compressedExt B) A
      (List.take_left' (compressedExt_length A))
    obtain ⟨b, eb, rb⟩ := geParseExt_eq ((compressedExt A ++ compressedExt B).drop 33) B
      (by rw [hd, List.drop_left' (compressedExt_length A)])
    unfold musigAggnonceParse
    simp only
    rw [ea]
    simp only
    rw [eb]
    simp only
    rw [aggnonceSave_obj ra rb]
  · rintro ⟨h1, h2⟩
    obtain ⟨A, e1⟩ := (extValid_iff (by simp [hl])).1 h1
    obtain ⟨B, e2⟩ := (extValid_iff (by simp [hl])).1 h2
    exact ⟨A, B, by rw [← e1, ← e2, List.take_append_drop]⟩
  · intro h
    unfold musigAggnonceParse
    simp only
    by_cases h1 : ExtValid (input.take 33)
    · have h2 : ¬ ExtValid (input.drop 33) := fun h2 => h ⟨h1, h2⟩
      rw [geParseExt_none (b := input.drop 33) (by simp [hl]) (by rw [hd]; exact h2)]
      cases musigGeParseExt input <;> rfl
    · rw [geParseExt_none (by omega) h1]

/-- An aggregate nonce with infinity in it. -/
example := (C34_aggnonce_parse [] (input := compressedExt G ++ compressedExt 0) (by decide +kernel)).1 G 0 rfl

/-- Every aggregate nonce object is written as its two extended points. -/
theorem C34_aggnonce_serialize (A B : Pt) {out : Bytes} (hl : out.length = 66) :
    musigAggnonceSerialize (some out) (some (aggnonceObject A B)) =
      ⟨1, 0, some (compressedExt A ++ compressedExt B)⟩ := by
  obtain ⟨a, b, e, ha, hb⟩ := aggnonceLoad_obj A B
  unfold musigAggnonceSerialize
  simp only
  rw [e]
  simp only
  rw [geSerializeExt_eq ha, geSerializeExt_eq hb]
  have h0 : put out 0 (zeros 66) = zeros 66 := by
    rw [put, List.take_zero, List.nil_append, List.drop_of_length_le (by simp [zeros, hl]), List.append_nil]
  rw [h0, put_two (compressedExt_length A) (compressedExt_length B)]

/-- Round trips of aggregate nonces, in both directions. -/
theorem C34_aggnonce_round_trip :
    (∀ (A B : Pt) (old out : Bytes), out.length = 66 → ∃ ser,
      musigAggnonceSerialize (some out) (some (aggnonceObject A B)) = ⟨1, 0, some ser⟩ ∧
      musigAggnonceParse (some old) (some ser) = ⟨1, 0, some (aggnonceObject A B)⟩) ∧
    (∀ old input out : Bytes, input.length = 66 → out.length = 66 →
      (musigAggnonceParse (some old) (some input)).ret ≠ 0 → ∃ obj,
      musigAggnonceParse (some old) (some input) = ⟨1, 0, some obj⟩ ∧
      musigAggnonceSerialize (some out) (some obj) = ⟨1, 0, some input⟩) := by
  constructor
  · intro A B old out hl
    refine ⟨_, C34_aggnonce_serialize A B hl, ?_⟩
    exact (C34_aggnonce_parse old (by rw [List.length_append, compressedExt_length, compressedExt_length])).1
      A B rfl
  · intro old input out hi ho h
    obtain ⟨p1, p2, p3⟩ := C34_aggnonce_parse old hi
    have hv : ExtValid (input.take 33) ∧ ExtValid (input.drop 33) := by
      by_contra hv
      rw [p3 hv] at h
      exact h rfl
    obtain ⟨A, B, e⟩ := p2 hv
    refine ⟨_, p1 A B e, ?_⟩
    rw [C34_aggnonce_serialize A B ho, e]

/-! ### Partial signatures -/

/-- `secp256k1_musig_partial_sig_parse` accepts exactly the encodings of numbers below the order.
Otherwise it returns 0 and zeroes the object. -/
theorem C34_partial_sig_parse (old : Bytes) {input : Bytes} (hl : input.length = 32) :
    (beNat input < n → musigPartialSigParse (some old) (some input) =
      ⟨1, 0, some (partialSigObject ((beNat input : ℕ) : Fn))⟩) ∧
    (n ≤ beNat input → musigPartialSigParse (some old) (some input) =
      ⟨0, 0, some (List.replicate 36 0)⟩) := by
  constructor
  · intro h
    unfold musigPartialSigParse
    simp only
    rw [if_neg (by rw [scSetB32_overflow, take32 hl]; omega)]
    have e : (scSetB32 input).1 = ((beNat input : ℕ) : Fn) := by
      apply ZMod.val_injective
      rw [scSetB32_val, take32 hl, ZMod.val_natCast]
    rw [e, partialSigSave_obj]
  · intro h
    unfold musigPartialSigParse
    simp only
    rw [if_pos (scSetB32_overflow.2 (by rw [take32 hl]; exact h))]
    rfl

example := (C34_partial_sig_parse [7] (input := beBytes 32 n) (Hash.beBytes_length _ _)).2 (by decide +kernel)
example := (C34_partial_sig_parse [7] (input := beBytes 32 5) (Hash.beBytes_length _ _)).1 (by decide +kernel)

/-- Every partial signature object is written as its scalar. -/
theorem C34_partial_sig_serialize (s : Fn) {out : Bytes} (hl : out.length = 32) :
    musigPartialSigSerialize (some out) (some (partialSigObject s)) = ⟨1, 0, some (beBytes 32 s.val)⟩ := by
  have hm : memcmpVar (partialSigObject s) partialSigMagic 4 = 0 := memcmp_magic _ rfl
  have e1 : (partialSigObject s).drop 4 = beBytes 32 s.val := rfl
  unfold musigPartialSigSerialize
  simp only
  rw [if_neg (by simpa using hm), e1, take32 (beBytes_len _ _),
    put_zero_full (by rw [hl, beBytes_len])]

/-- Round trips of partial signatures, in both directions. -/
theorem C34_partial_sig_round_trip :
    (∀ (s : Fn) (old out : Bytes), out.length = 32 → ∃ ser,
      musigPartialSigSerialize (some out) (some (partialSigObject s)) = ⟨1, 0, some ser⟩ ∧
      musigPartialSigParse (some old) (some ser) = ⟨1, 0, some (partialSigObject s)⟩) ∧
    (∀ old input out : Bytes, input.length = 32 → out.length = 32 →
      (musigPartialSigParse (some old) (some input)).ret ≠ 0 → ∃ obj,
      musigPartialSigParse (some old) (some input) = ⟨1, 0, some obj⟩ ∧
      musigPartialSigSerialize (some out) (some obj) = ⟨1, 0, some input⟩) := by
  constructor
  · intro s old out hl
    refine ⟨_, C34_partial_sig_serialize s hl, ?_⟩
    have hv : beNat (beBytes 32 s.val) = s.val := by rw [beNat_beBytes, Nat.mod_eq_of_lt (fn_lt s)]
    rw [(C34_partial_sig_parse old (beBytes_len _ _)).1 (by rw [hv]; exact ZMod.val_lt s), hv,
      ZMod.natCast_zmod_val]
  · intro old input out hi ho h
    have hv : beNat input < n := by
      by_contra hv
      rw [(C34_partial_sig_parse old hi).2 (by omega)] at h
      exact h rfl
    refine ⟨_, (C34_partial_sig_parse old hi).1 hv, ?_⟩
    rw [C34_partial_sig_serialize _ ho, ZMod.val_natCast, Nat.mod_eq_of_lt hv, beBytes_beNat' hi]

/-! ### Objects of the wrong kind -/

/-- An object that does not start with the magic bytes of its kind is an illegal argument for the
serialization functions: one callback, return value 0, and no data in the output. -/
theorem C34_wrong_kind {obj : Bytes} (h4 : 4 ≤ obj.length) (out : Bytes) :
    (obj.take 4 ≠ [0xf5, 0x7a, 0x3d, 0xa0] → out.length = 66 →
      musigPubnonceSerialize (some out) (some obj) = ⟨0, 1, some (List.replicate 66 0)⟩) ∧
    (obj.take 4 ≠ [0xa8, 0xb7, 0xe4, 0x67] → out.length = 66 →
      musigAggnonceSerialize (some out) (some obj) = ⟨0, 1, some (List.replicate 66 0)⟩) ∧
    (obj.take 4 ≠ [0xeb, 0xfb, 0x1a, 0x32] →
      musigPartialSigSerialize (some out) (some obj) = ⟨0, 1, some out⟩) := by
  have h0 : out.length = 66 → put out 0 (zeros 66) = List.replicate 66 0 := by
    intro hl
    rw [put, List.take_zero, List.nil_append, List.drop_of_length_le (by simp [zeros, hl]), List.append_nil]
    rfl
  refine ⟨fun hm hl => ?_, fun hm hl => ?_, fun hm => ?_⟩
  · have e : pubnonceLoad obj = none := by
      rw [pubnonceLoad, if_pos]
      rw [Ne, memcmpVar_take (k := 4) h4 rfl]; exact hm
    unfold musigPubnonceSerialize
    simp only
    rw [e, h0 hl]
    rfl
  · have e : aggnonceLoad obj = none := by
      rw [aggnonceLoad, if_pos]
      rw [Ne, memcmpVar_take (k := 4) h4 rfl]; exact hm
    unfold musigAggnonceSerialize
    simp only
    rw [e, h0 hl]
    rfl
  · unfold musigPartialSigSerialize
    simp only
    rw [if_pos]
    · rfl
    · rw [Ne, memcmpVar_take (k := 4) h4 rfl]; exact hm

/-- A partial signature passed as a nonce. -/
example := (C34_wrong_kind (obj := partialSigObject 5) (by decide +kernel) (zeros 66)).1 (by decide +kernel)
  (by simp [zeros])

/-- The public nonce (G, -G), the aggregate nonce (infinity, G), and a public nonce given where a partial
signature is expected. -/
example : G ≠ 0 ∧ -G ≠ 0 ∧ ExtValid (compressedExt 0) ∧ ExtValid (compressedExt G) ∧
    (pubnonceObject G (-G)).take 4 ≠ [0xeb, 0xfb, 0x1a, 0x32] ∧ beNat (List.replicate 32 1) < n := by
  refine ⟨G_ne_zero, neg_ne_zero.2 G_ne_zero, (extValid_iff (compressedExt_length _)).2 ⟨_, rfl⟩,
    (extValid_iff (compressedExt_length _)).2 ⟨_, rfl⟩, ?_, by decide +kernel⟩
  have : (pubnonceObject G (-G)).take 4 = [0xf5, 0x7a, 0x3d, 0xa0] := rfl
  rw [this]
  decide

end Secp
