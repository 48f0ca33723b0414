import Verif.Proof.Keys

/-! # Parsing and serializing points -/

namespace Secp
open WeierstrassCurve Model FeOps Spec

theorem cons_take_drop {b : Bytes} (h : b.length = 33) : b = b.headD 0 :: (b.drop 1).take 32 := by
  match b, h with
  | a :: t, h =>
    simp only [List.headD_cons, List.drop_succ_cons, List.drop_zero]
    rw [List.take_of_length_le]
    simp at h; omega

theorem cons_take_drop65 {b : Bytes} (h : b.length = 65) :
    b = b.headD 0 :: ((b.drop 1).take 32 ++ (b.drop 33).take 32) := by
  match b, h with
  | a :: t, h =>
    simp only [List.headD_cons, List.drop_succ_cons, List.drop_zero]
    have hl : t.length = 64 := by simpa using h
    rw [List.take_of_length_le (l := t.drop 32) (by simp; omega), List.take_append_drop]

theorem beBytes_ptX {b : Bytes} (h : b.length = 32) {P : Pt} (e : beNat b = ptX P) :
    beBytes 32 (ptX P) = b := by rw [← e, beBytes_beNat' h]

theorem exists_pt {x y : Fp} (h : y ^ 2 = x ^ 3 + 7) : ∃ hn : E.Nonsingular x y, True :=
  ⟨neg7_not_cube.nonsingular h, trivial⟩

theorem beNat_take32 (P : Pt) (t : Bytes) : beNat ((beBytes 32 (ptX P) ++ t).take 32) = ptX P := by
  rw [List.take_append_of_le_length (by rw [Hash.beBytes_length]),
    List.take_of_length_le (by rw [Hash.beBytes_length]), beNat_beBytes,
    Nat.mod_eq_of_lt (lt_trans (ptX_lt P) p_lt_256)]

theorem beNat_take32' (P : Pt) : beNat ((beBytes 32 (ptX P)).take 32) = ptX P := by
  simpa using beNat_take32 P []

theorem beNat_take32y (P : Pt) : beNat ((beBytes 32 (ptY P)).take 32) = ptY P := by
  rw [List.take_of_length_le (by rw [Hash.beBytes_length]), beNat_beBytes,
    Nat.mod_eq_of_lt (lt_trans (ptY_lt P) p_lt_256)]

theorem cast_ptX {x y : Fp} (h : E.Nonsingular x y) : ((ptX (.some x y h) : ℕ) : Fp) = x := by
  rw [ptX_some, ZMod.natCast_zmod_val]

/-- Lifting an x coordinate with a chosen parity. -/
theorem geSetXoVar_rep {P : Pt} (hP : P ≠ 0) {odd : Bool} (ho : ptY P % 2 = 1 ↔ odd = true) :
    (geSetXoVar ((ptX P : ℕ) : Fp) odd).2 = true ∧
      GeRep 7 (geSetXoVar ((ptX P : ℕ) : Fp) odd).1 P := by
  rcases pt_cases P with rfl | ⟨x, y, hn, rfl⟩
  · exact absurd rfl hP
  rw [cast_ptX]
  obtain ⟨h1, h2⟩ := geSetXoVar_spec x odd
  have hs := h1.2 ⟨y, nonsingular_eq hn⟩
  obtain ⟨e1, e2, e3, e4⟩ := h2 hs
  refine ⟨hs, GeRep.intro e2 e1 ?_⟩
  apply y_eq_of_parity e3 (nonsingular_eq hn)
  rw [ptY_some] at ho
  have : (geSetXoVar x odd).1.y.val % 2 = 1 ↔ y.val % 2 = 1 := by rw [e4, ho]
  omega

/-- Lifting succeeds only on x coordinates of points. -/
theorem geSetXoVar_exists {v : ℕ} (hv : v < p) {odd : Bool}
    (h : (geSetXoVar ((v : ℕ) : Fp) odd).2 = true) :
    ∃ P : Pt, P ≠ 0 ∧ ptX P = v ∧ (ptY P % 2 = 1 ↔ odd = true) := by
  obtain ⟨h1, h2⟩ := geSetXoVar_spec ((v : ℕ) : Fp) odd
  obtain ⟨e1, e2, e3, e4⟩ := h2 h
  obtain ⟨hn, -⟩ := exists_pt e3
  refine ⟨.some _ _ hn, (by intro h; cases h), ?_, ?_⟩
  · rw [ptX_some, ZMod.val_natCast, Nat.mod_eq_of_lt hv]
  · rw [ptY_some]; exact e4

theorem feIsOdd_iff (a : Fp) : feIsOdd a = true ↔ a.val % 2 = 1 := by simp [feIsOdd]

/-- Compressed encodings parse to their point. -/
theorem parse_compressed {P : Pt} (hP : P ≠ 0) :
    (eckeyPubkeyParse (compressed P)).2 = true ∧ GeRep 7 (eckeyPubkeyParse (compressed P)).1 P := by
  have hl : (compressed P).length = 33 := by simp [compressed, Hash.beBytes_length]
  have hh : (compressed P).headD 0 = tagEven ∨ (compressed P).headD 0 = tagOdd := by
    unfold compressed; split <;> simp [tagEven, tagOdd]
  have hd : (compressed P).drop 1 = beBytes 32 (ptX P) := rfl
  have hx : feSetB32Limit ((compressed P).drop 1) = (((ptX P : ℕ) : Fp), true) := by
    simp only [feSetB32Limit]; rw [hd, beNat_take32']; simp [ptX_lt]
  have ho : ptY P % 2 = 1 ↔ ((compressed P).headD 0 == tagOdd) = true := by
    unfold compressed; split <;> rename_i h <;> simp [tagOdd, h]
  have e : eckeyPubkeyParse (compressed P) =
      geSetXoVar ((ptX P : ℕ) : Fp) ((compressed P).headD 0 == tagOdd) := by
    unfold eckeyPubkeyParse
    simp only
    rw [if_pos ⟨hl, hh⟩, hx]
    rfl
  rw [e]
  exact geSetXoVar_rep hP ho

theorem parse_long {P : Pt} (hP : P ≠ 0) {t : UInt8}
    (ht : t = 4 ∨ t = if ptY P % 2 = 1 then 7 else 6) :
    (eckeyPubkeyParse (t :: (beBytes 32 (ptX P) ++ beBytes 32 (ptY P)))).2 = true ∧
    GeRep 7 (eckeyPubkeyParse (t :: (beBytes 32 (ptX P) ++ beBytes 32 (ptY P)))).1 P := by
  generalize hb : t :: (beBytes 32 (ptX P) ++ beBytes 32 (ptY P)) = b
  have hl : b.length = 65 := by rw [← hb]; simp [Hash.beBytes_length]
  have hh : b.headD 0 = t := by rw [← hb]; rfl
  have hd : b.drop 1 = beBytes 32 (ptX P) ++ beBytes 32 (ptY P) := by rw [← hb]; rfl
  have hd' : b.drop 33 = beBytes 32 (ptY P) := by
    rw [← hb, List.drop_succ_cons, List.drop_left' (Hash.beBytes_length _ _)]
  have hx : feSetB32Limit (b.drop 1) = (((ptX P : ℕ) : Fp), true) := by
    simp only [feSetB32Limit]; rw [hd, beNat_take32]; simp [ptX_lt]
  have hy : feSetB32Limit (b.drop 33) = (((ptY P : ℕ) : Fp), true) := by
    simp only [feSetB32Limit]; rw [hd', beNat_take32y]; simp [ptY_lt]
  have hr : GeRep 7 (geSetXY ((ptX P : ℕ) : Fp) ((ptY P : ℕ) : Fp)) P := by
    rcases pt_cases P with rfl | ⟨x, y, hn, rfl⟩
    · exact absurd rfl hP
    · refine GeRep.intro rfl ?_ ?_
      · simp only [geSetXY]; rw [cast_ptX]
      · simp only [geSetXY]; rw [ptY_some, ZMod.natCast_zmod_val]
  have hv : geIsValidVar (geSetXY ((ptX P : ℕ) : Fp) ((ptY P : ℕ) : Fp)) = true := by
    exact (geIsValidVar_iff _).2 ⟨P, hP, hr⟩
  have hpar : (((ptY P : ℕ) : Fp)).val = ptY P := by
    rw [ZMod.val_natCast, Nat.mod_eq_of_lt (ptY_lt P)]
  have e : eckeyPubkeyParse b = (geSetXY ((ptX P : ℕ) : Fp) ((ptY P : ℕ) : Fp), true) := by
    unfold eckeyPubkeyParse
    simp only
    rw [if_neg (by rw [hl]; omega), hh, hx, hy, if_pos, hv, if_neg (by simp), if_neg]
    · rintro ⟨h1, h2⟩
      apply h2
      rw [Bool.eq_iff_iff, feIsOdd_iff, hpar]
      rcases ht with rfl | rfl
      · simp [tagHybridEven, tagHybridOdd] at h1
      · split <;> rename_i h <;> simp [tagHybridOdd, h]
    · refine ⟨hl, ?_⟩
      rcases ht with rfl | rfl
      · exact Or.inl rfl
      · split
        · exact Or.inr (Or.inr rfl)
        · exact Or.inr (Or.inl rfl)
  rw [e]
  exact ⟨rfl, hr⟩

theorem feSetB32Limit_lt {b : Bytes} (h : beNat (b.take 32) < p) :
    feSetB32Limit b = (((beNat (b.take 32) : ℕ) : Fp), true) := by
  simp only [feSetB32Limit]; rw [decide_eq_true h]

theorem feSetB32Limit_ge {b : Bytes} (h : ¬ beNat (b.take 32) < p) :
    feSetB32Limit b = (((beNat (b.take 32) : ℕ) : Fp), false) := by
  simp only [feSetB32Limit]; rw [decide_eq_false h]

/-- Only encodings of points parse. -/
theorem parse_sound {b : Bytes} (h : (eckeyPubkeyParse b).2 = true) :
    ∃ P : Pt, P ≠ 0 ∧ (b = compressed P ∨ b = uncompressed P ∨ b = hybrid P) := by
  unfold eckeyPubkeyParse at h
  simp only at h
  by_cases h1 : b.length = 33 ∧ (b.headD 0 = tagEven ∨ b.headD 0 = tagOdd)
  · rw [if_pos h1] at h
    have hs := cons_take_drop h1.1
    have hl : ((b.drop 1).take 32).length = 32 := by simp; omega
    by_cases hlt : beNat ((b.drop 1).take 32) < p
    · rw [feSetB32Limit_lt hlt, if_pos rfl] at h
      obtain ⟨P, hP, hx, ho⟩ := geSetXoVar_exists hlt h
      refine ⟨P, hP, Or.inl ?_⟩
      rw [compressed, beBytes_ptX hl hx.symm]
      refine hs.trans ?_
      congr 1
      rcases h1.2 with h2 | h2 <;> rw [h2] at ho ⊢
      · rw [if_neg]
        · rfl
        · rw [ho]; decide
      · rw [if_pos]
        · rfl
        · rw [ho]; decide
    · rw [feSetB32Limit_ge hlt, if_neg (by simp)] at h
      cases h
  rw [if_neg h1] at h
  by_cases h2 : b.length = 65 ∧ (b.headD 0 = tagUncompressed ∨ b.headD 0 = tagHybridEven ∨
      b.headD 0 = tagHybridOdd)
  · rw [if_pos h2] at h
    have hs := cons_take_drop65 h2.1
    have hl1 : ((b.drop 1).take 32).length = 32 := by simp; omega
    have hl2 : ((b.drop 33).take 32).length = 32 := by simp; omega
    by_cases hc : beNat ((b.drop 1).take 32) < p ∧ beNat ((b.drop 33).take 32) < p
    · rw [feSetB32Limit_lt hc.1, feSetB32Limit_lt hc.2, if_neg (by simp)] at h
      by_cases hp : (b.headD 0 = tagHybridEven ∨ b.headD 0 = tagHybridOdd) ∧
          feIsOdd ((beNat ((b.drop 33).take 32) : ℕ) : Fp) ≠ (b.headD 0 == tagHybridOdd)
      · rw [if_pos hp] at h; cases h
      · rw [if_neg hp] at h
        have h' : geIsValidVar (geSetXY ((beNat ((b.drop 1).take 32) : ℕ) : Fp)
            ((beNat ((b.drop 33).take 32) : ℕ) : Fp)) = true := h
        obtain ⟨P, hP, hr⟩ := (geIsValidVar_iff _).1 h'
        have hX : beNat ((b.drop 1).take 32) = ptX P := by
          rw [← geRep_x hr hP]; simp only [geSetXY]
          rw [ZMod.val_natCast, Nat.mod_eq_of_lt hc.1]
        have hY : beNat ((b.drop 33).take 32) = ptY P := by
          rw [← geRep_y hr hP]; simp only [geSetXY]
          rw [ZMod.val_natCast, Nat.mod_eq_of_lt hc.2]
        refine ⟨P, hP, Or.inr ?_⟩
        rw [hY] at hp
        have hpar : (((ptY P : ℕ) : Fp)).val = ptY P := by
          rw [ZMod.val_natCast, Nat.mod_eq_of_lt (ptY_lt P)]
        rw [uncompressed, hybrid, ← hX, ← hY, beBytes_beNat' hl1, beBytes_beNat' hl2, hY]
        rcases h2.2 with h3 | h3
        · exact Or.inl (hs.trans (by rw [h3]; rfl))
        · right
          refine hs.trans ?_
          congr 1
          have hp' := fun hne => hp ⟨h3, hne⟩
          have ho : feIsOdd ((ptY P : ℕ) : Fp) = (b.headD 0 == tagHybridOdd) := by
            by_contra hne; exact hp' hne
          rw [Bool.eq_iff_iff, feIsOdd_iff, hpar] at ho
          rcases h3 with h3 | h3 <;> rw [h3] at ho ⊢
          · rw [if_neg]
            · rfl
            · rw [ho]; decide
          · rw [if_pos]
            · rfl
            · rw [ho]; decide
    · rw [if_pos (by
        simp only [feSetB32Limit, Bool.or_eq_true, Bool.not_eq_true', decide_eq_false_iff_not]
        tauto)] at h
      cases h
  · rw [if_neg h2] at h
    cases h

/-- The elementary description and the description by points agree. -/
theorem sec1Valid_iff (b : Bytes) : Sec1Valid b ↔
    ∃ P : Pt, P ≠ 0 ∧ (b = compressed P ∨ b = uncompressed P ∨ b = hybrid P) := by
  constructor
  · unfold Sec1Valid
    simp only
    rintro (⟨hl, hh, hx, y, hy⟩ | ⟨hl, hh, hx, hy, he⟩)
    · have hs := cons_take_drop hl
      have hl1 : ((b.drop 1).take 32).length = 32 := by simp; omega
      have hset : ∀ odd, (geSetXoVar ((beNat ((b.drop 1).take 32) : ℕ) : Fp) odd).2 = true :=
        fun odd => (geSetXoVar_spec _ odd).1.2 ⟨y, hy⟩
      obtain ⟨P, hP, e, ho⟩ := geSetXoVar_exists hx (hset (b.headD 0 == 3))
      refine ⟨P, hP, Or.inl ?_⟩
      rw [compressed, beBytes_ptX hl1 e.symm]
      refine hs.trans ?_
      congr 1
      rcases hh with h2 | h2 <;> rw [h2] at ho ⊢
      · rw [if_neg]; rw [ho]; decide
      · rw [if_pos]; rw [ho]; decide
    · have hs := cons_take_drop65 hl
      have hl1 : ((b.drop 1).take 32).length = 32 := by simp; omega
      have hl2 : ((b.drop 33).take 32).length = 32 := by simp; omega
      obtain ⟨hn, -⟩ := exists_pt he
      have hX : ptX (.some _ _ hn) = beNat ((b.drop 1).take 32) := by
        rw [ptX_some, ZMod.val_natCast, Nat.mod_eq_of_lt hx]
      have hY : ptY (.some _ _ hn) = beNat ((b.drop 33).take 32) := by
        rw [ptY_some, ZMod.val_natCast, Nat.mod_eq_of_lt hy]
      refine ⟨.some _ _ hn, (by intro h; cases h), Or.inr ?_⟩
      rw [uncompressed, hybrid, hX, hY, beBytes_beNat' hl1, beBytes_beNat' hl2]
      rcases hh with h4 | ⟨h6, hp⟩ | ⟨h7, hp⟩
      · exact Or.inl (by rw [← h4]; exact hs)
      · right; rw [if_neg (by omega), ← h6]; exact hs
      · right; rw [if_pos hp, ← h7]; exact hs
  · rintro ⟨P, hP, h⟩
    obtain ⟨x, y, hn, rfl⟩ := (pt_cases P).resolve_left hP
    unfold Sec1Valid
    simp only
    rcases h with rfl | h
    · left
      have hd : (compressed (.some x y hn)).drop 1 = beBytes 32 (ptX (.some x y hn)) := rfl
      rw [hd, beNat_take32', cast_ptX]
      refine ⟨by simp [compressed, Hash.beBytes_length], ?_, ptX_lt _, y, nonsingular_eq hn⟩
      unfold compressed; split <;> simp
    · right
      obtain ⟨t, ht, e⟩ : ∃ t : UInt8, (t = 4 ∨ (t = 6 ∧ ptY (.some x y hn) % 2 = 0) ∨
          (t = 7 ∧ ptY (.some x y hn) % 2 = 1)) ∧
          b = t :: (beBytes 32 (ptX (.some x y hn)) ++ beBytes 32 (ptY (.some x y hn))) := by
        rcases h with rfl | rfl
        · exact ⟨4, Or.inl rfl, rfl⟩
        · by_cases ho : ptY (.some x y hn) % 2 = 1
          · exact ⟨7, Or.inr (Or.inr ⟨rfl, ho⟩), by rw [hybrid, if_pos ho]⟩
          · exact ⟨6, Or.inr (Or.inl ⟨rfl, by omega⟩), by rw [hybrid, if_neg ho]⟩
      have hd : b.drop 1 = beBytes 32 (ptX (.some x y hn)) ++ beBytes 32 (ptY (.some x y hn)) := by
        rw [e]; rfl
      have hd' : b.drop 33 = beBytes 32 (ptY (.some x y hn)) := by
        rw [e, List.drop_succ_cons, List.drop_left' (Hash.beBytes_length _ _)]
      have hh : b.headD 0 = t := by rw [e]; rfl
      rw [hd, hd', hh, beNat_take32, beNat_take32y, cast_ptX]
      refine ⟨by rw [e]; simp [Hash.beBytes_length], ht, ptX_lt _, ptY_lt _, ?_⟩
      rw [ptY_some, ZMod.natCast_zmod_val]
      exact nonsingular_eq hn

theorem compressed_length (P : Pt) : (compressed P).length = 33 := by
  simp [compressed, Hash.beBytes_length]

theorem uncompressed_length (P : Pt) : (uncompressed P).length = 65 := by
  simp [uncompressed, Hash.beBytes_length]

theorem hybrid_length (P : Pt) : (hybrid P).length = 65 := by
  simp [hybrid, Hash.beBytes_length]

theorem compressed_injective : Function.Injective compressed := by
  intro P Q h
  unfold compressed at h
  rw [List.cons.injEq] at h
  refine pt_ext_parity ?_ ?_
  · rw [← beNat_take32' P, ← beNat_take32' Q, h.2]
  · have := h.1
    split at this <;> split at this <;> first | omega | (exfalso; revert this; decide)

theorem put_one {pub x : Bytes} (hx : x.length = 32) (hp : 33 ≤ pub.length) (t : UInt8) :
    put (put pub 1 x) 0 [t] = t :: (x ++ pub.drop 33) := by
  have e : put pub 1 x = pub.take 1 ++ (x ++ pub.drop 33) := by
    simp only [put]; rw [List.append_assoc, hx]
  have h1 : (pub.take 1).length = 1 := by simp; omega
  rw [e]
  simp only [put, List.take_zero, List.nil_append, List.length_singleton, Nat.zero_add]
  rw [List.drop_left' h1]
  rfl

theorem feGetB32_length (a : Fp) : (feGetB32 a).length = 32 := Hash.beBytes_length _ _

theorem serialize_compressed {a : Ge Fp} {P : Pt} (h : GeRep 7 a P) (hP : P ≠ 0) {pub : Bytes}
    (hl : 33 ≤ pub.length) (sz : ℕ) :
    eckeyPubkeySerialize a pub sz true = (compressed P ++ pub.drop 33, 33, true) := by
  unfold eckeyPubkeySerialize
  simp only [geRep_inf h hP, if_true, Bool.false_eq_true, if_false]
  rw [put_one (feGetB32_length _) hl]
  simp only [FeOps.normalize, feGetB32, geRep_x h hP]
  rw [compressed]
  by_cases ho : ptY P % 2 = 1
  · rw [if_pos ((feIsOdd_iff _).2 (by rw [geRep_y h hP]; exact ho)), if_pos ho]; rfl
  · rw [if_neg (fun e => ho (by rw [← geRep_y h hP]; exact (feIsOdd_iff _).1 e)), if_neg ho]; rfl

theorem serialize_uncompressed {a : Ge Fp} {P : Pt} (h : GeRep 7 a P) (hP : P ≠ 0) {pub : Bytes}
    (hl : 65 ≤ pub.length) (sz : ℕ) :
    eckeyPubkeySerialize a pub sz false = (uncompressed P ++ pub.drop 65, 65, true) := by
  unfold eckeyPubkeySerialize
  simp only [geRep_inf h hP, Bool.false_eq_true, if_false]
  rw [put_one (feGetB32_length _) (by omega)]
  simp only [FeOps.normalize, feGetB32, geRep_x h hP, geRep_y h hP]
  rw [uncompressed, put, Hash.beBytes_length]
  have e1 : (tagUncompressed :: (beBytes 32 (ptX P) ++ pub.drop 33)).take 33 =
      tagUncompressed :: beBytes 32 (ptX P) := by
    rw [List.take_succ_cons, List.take_left' (Hash.beBytes_length _ _)]
  have e2 : (tagUncompressed :: (beBytes 32 (ptX P) ++ pub.drop 33)).drop (33 + 32) =
      pub.drop 65 := by
    rw [show 33 + 32 = 64 + 1 from rfl, List.drop_succ_cons, List.drop_append, Hash.beBytes_length,
      List.drop_drop, List.drop_of_length_le (by rw [Hash.beBytes_length]; omega)]
    rfl
  rw [e1, e2]
  simp [tagUncompressed]

end Secp
