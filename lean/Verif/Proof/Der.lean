import Verif.Model.Ecdsa
import Verif.Spec.Der
import Verif.Proof.Keys

/-! # The DER parser accepts the DER grammar -/

namespace Secp
open Model Spec

theorem u8_forall {P : UInt8 → Prop} (h : ∀ m < 256, P (UInt8.ofNat m)) (b : UInt8) : P b := by
  have := h b.toNat b.toNat_lt
  rwa [UInt8.ofNat_toNat] at this

theorem u8_and_80 (b : UInt8) : (b &&& 0x80 = 0 ↔ b.toNat < 128) ∧
    (b &&& 0x80 = 0x80 ↔ 128 ≤ b.toNat) ∧ ((b &&& 0x80 == 0x80) = decide (128 ≤ b.toNat)) ∧
    (b &&& 0x7F).toNat = b.toNat % 128 := by
  revert b
  apply u8_forall
  decide +kernel

theorem u8_ofNat_toNat {k : ℕ} (h : k < 256) : (UInt8.ofNat k).toNat = k := by
  simp [UInt8.toNat_ofNat', Nat.mod_eq_of_lt h]

theorem derLenLoop_eq (k : ℕ) : ∀ (len : ℕ) (sig : Bytes), k ≤ 8 → len < 256 ^ (8 - k) →
    k ≤ sig.length →
    derLenLoop k len sig = .ok (len * 256 ^ k + beNat (sig.take k), sig.drop k) := by
  induction k with
  | zero => intro len sig _ _ _; simp [derLenLoop, beNat_nil]
  | succ k ih =>
    intro len sig hk hlen hs
    match sig, hs with
    | b :: sig, hs =>
      have hb := b.toNat_lt
      have h1 : len * 256 < 2 ^ 64 := by
        have h2 : (256 : ℕ) ^ (8 - (k + 1)) ≤ 256 ^ 7 := Nat.pow_le_pow_right (by norm_num) (by omega)
        have h3 : (256 : ℕ) ^ 7 * 256 = 2 ^ 64 := by norm_num
        omega
      have e : ((len <<< 8) % 2 ^ 64) ||| b.toNat = len * 256 + b.toNat := by
        rw [Nat.shiftLeft_eq, Nat.mod_eq_of_lt (by omega), Nat.mul_comm, ← Nat.two_pow_add_eq_or_of_lt
          (by omega)]
      rw [derLenLoop, e, ih _ _ (by omega) _ (by simpa using hs)]
      · have hv : (len * 256 + b.toNat) * 256 ^ k + beNat (sig.take k) =
            len * 256 ^ (k + 1) + beNat ((b :: sig).take (k + 1)) := by
          rw [List.take_succ_cons, beNat_cons, List.length_take, Nat.min_eq_left (by simpa using hs)]
          ring
        rw [hv, List.drop_succ_cons]
      · have h2 : (256 : ℕ) ^ (8 - k) = 256 ^ (8 - (k + 1)) * 256 := by
          rw [← pow_succ]; congr 1; omega
        rw [h2]
        clear e h1 h2 ih
        revert hlen
        generalize (256 : ℕ) ^ (8 - (k + 1)) = X
        intro hlen
        omega

theorem beNat_ge {c : Bytes} (h : c.headD 0 ≠ 0) : 256 ^ (c.length - 1) ≤ beNat c := by
  match c with
  | [] => simp at h
  | a :: t =>
    rw [beNat_cons]
    have : 0 < a.toNat := by
      rcases Nat.eq_zero_or_pos a.toNat with h0 | h0
      · exact absurd (UInt8.toNat.inj (by simpa using h0)) h
      · exact h0
    simp only [List.length_cons, Nat.add_sub_cancel]
    nlinarith [Nat.pow_pos (n := t.length) (show 0 < 256 by norm_num)]

theorem derReadLong_iff {k : ℕ} {sig : Bytes} (hk : 0 < k) (hs : sig.length < 2 ^ 64) :
    derReadLong k sig ≠ .ub ∧ ∀ L rest, derReadLong k sig = .ok (L, rest) ↔
      128 ≤ L ∧ L ≤ rest.length ∧ ∃ c : Bytes, c.length = k ∧ c.headD 0 ≠ 0 ∧ beNat c = L ∧
        sig = c ++ rest := by
  unfold derReadLong
  by_cases h1 : k > sig.length
  · rw [if_pos h1]
    refine ⟨by simp, fun L rest => ⟨by simp, ?_⟩⟩
    rintro ⟨-, -, c, rfl, -, -, rfl⟩
    simp at h1
  · rw [if_neg h1]
    match sig, h1, hs with
    | [], h1, hs => simp at h1; omega
    | a :: t, h1, hs =>
      simp only
      by_cases ha : a = 0
      · rw [if_pos ha]
        refine ⟨by simp, fun L rest => ⟨by simp, ?_⟩⟩
        rintro ⟨-, -, c, rfl, h0, -, h⟩
        match c, h0 with
        | b :: c, h0 =>
          cases h
          exact absurd ha h0
      · rw [if_neg ha]
        by_cases h8 : k > 8
        · rw [if_pos h8]
          refine ⟨by simp, fun L rest => ⟨by simp, ?_⟩⟩
          rintro ⟨-, h2, c, rfl, h0, rfl, h⟩
          have hl := beNat_ge h0
          have : (256 : ℕ) ^ 8 ≤ 256 ^ (c.length - 1) :=
            Nat.pow_le_pow_right (by norm_num) (by omega)
          have h3 : (256 : ℕ) ^ 8 = 2 ^ 64 := by norm_num
          have h4 := congrArg List.length h
          rw [List.length_append] at h4
          omega
        · rw [if_neg h8, derLenLoop_eq _ _ _ (by omega) (by positivity) (by omega), zero_mul, zero_add]
          simp only
          have hl : ((a :: t).take k).length = k := by rw [List.length_take]; omega
          have hh : ((a :: t).take k).headD 0 ≠ 0 := by
            obtain ⟨k', rfl⟩ : ∃ k', k = k' + 1 := ⟨k - 1, by omega⟩
            rw [List.take_succ_cons]
            exact ha
          constructor
          · split_ifs <;> simp
          · intro L rest
            constructor
            · intro h
              split_ifs at h with h5 h6
              simp only [Der.ok.injEq, Prod.mk.injEq] at h
              obtain ⟨rfl, rfl⟩ := h
              exact ⟨by omega, by omega, _, hl, hh, rfl, (List.take_append_drop _ _).symm⟩
            · rintro ⟨h5, h6, c, rfl, h0, rfl, h⟩
              rw [h, List.take_left' rfl, List.drop_left' rfl, if_neg (by omega), if_neg (by omega)]

theorem derReadLen_ne_ub {b : Bytes} (hb : b.length < 2 ^ 64) : derReadLen b ≠ .ub := by
  unfold derReadLen
  match b, hb with
  | [], _ => simp
  | b1 :: sig, hb =>
    simp only
    by_cases h1 : b1 = 0xFF
    · rw [if_pos h1]; simp
    rw [if_neg h1]
    by_cases h2 : b1 &&& 0x80 = 0
    · rw [if_pos h2]; simp
    rw [if_neg h2]
    by_cases h3 : b1 = 0x80
    · rw [if_pos h3]; simp
    rw [if_neg h3]
    have hu := u8_and_80 b1
    have hb1 := b1.toNat_lt
    have hne : b1.toNat ≠ 128 := fun e => h3 (UInt8.toNat.inj (by rw [e]; rfl))
    rw [hu.1] at h2
    rw [List.length_cons] at hb
    exact (derReadLong_iff (by rw [hu.2.2.2]; omega) (by omega)).1

theorem derReadLen_iff {b : Bytes} (hb : b.length < 2 ^ 64) (L : ℕ) (rest : Bytes) :
    derReadLen b = .ok (L, rest) ↔
      ∃ o, DerLength o L ∧ b = o ++ rest ∧ (128 ≤ L → L ≤ rest.length) := by
  constructor
  · intro h
    unfold derReadLen at h
    match b, hb with
    | b1 :: sig, hb =>
      simp only at h
      have hu := u8_and_80 b1
      have hb1 := b1.toNat_lt
      by_cases h1 : b1 = 0xFF
      · rw [if_pos h1] at h; cases h
      rw [if_neg h1] at h
      have h1' : b1.toNat ≠ 255 := fun e => h1 (UInt8.toNat.inj (by rw [e]; rfl))
      by_cases h2 : b1 &&& 0x80 = 0
      · rw [if_pos h2] at h
        rw [hu.1] at h2
        cases h
        exact ⟨[b1], Or.inl ⟨h2, by simp⟩, rfl, by omega⟩
      rw [if_neg h2] at h
      by_cases h3 : b1 = 0x80
      · rw [if_pos h3] at h; cases h
      rw [if_neg h3] at h
      have hne : b1.toNat ≠ 128 := fun e => h3 (UInt8.toNat.inj (by rw [e]; rfl))
      rw [hu.1] at h2
      rw [List.length_cons] at hb
      obtain ⟨h4, h5, c, hc, h0, hv, rfl⟩ :=
        ((derReadLong_iff (by rw [hu.2.2.2]; omega) (by omega)).2 L rest).1 h
      rw [hu.2.2.2] at hc
      refine ⟨b1 :: c, Or.inr ⟨h4, c, by omega, h0, ?_, hv⟩, rfl, fun _ => h5⟩
      rw [hc, show 128 + b1.toNat % 128 = b1.toNat by omega, UInt8.ofNat_toNat]
  · rintro ⟨o, ho, rfl, hr⟩
    rcases ho with ⟨hL, rfl⟩ | ⟨hL, c, hc, h0, rfl, hv⟩
    · rw [List.singleton_append]
      unfold derReadLen
      have hu := u8_and_80 (UInt8.ofNat L)
      have e := u8_ofNat_toNat (show L < 256 by omega)
      simp only
      rw [if_neg, if_pos (hu.1.2 (by rw [e]; exact hL)), e]
      intro h
      have := congrArg UInt8.toNat h
      rw [e] at this
      simp at this
      omega
    · have hr := hr hL
      simp only [List.cons_append, List.length_cons, List.length_append] at hb
      have hu := u8_and_80 (UInt8.ofNat (128 + c.length))
      have e := u8_ofNat_toNat (show 128 + c.length < 256 by omega)
      have hc0 : 0 < c.length := by
        match c, h0 with
        | _ :: _, _ => simp
      rw [List.cons_append]
      unfold derReadLen
      simp only
      rw [if_neg, if_neg, if_neg, hu.2.2.2, e, show (128 + c.length) % 128 = c.length by omega]
      · rw [(derReadLong_iff hc0 (by simp; omega)).2]
        exact ⟨hL, hr, c, rfl, h0, hv, rfl⟩
      · intro h
        have := congrArg UInt8.toNat h
        rw [e] at this
        change 128 + c.length = 128 at this
        omega
      · rw [hu.1, e]; omega
      · intro h
        have := congrArg UInt8.toNat h
        rw [e] at this
        simp at this
        omega

/-- The scalar that the parser stores for an encoded integer. -/
def derScalar (z : ℤ) : Fn := if 0 ≤ z ∧ z < n then (z : Fn) else 0

theorem scSetB32_padded {c : Bytes} (h : c.length ≤ 32) :
    beNat ((zeros (32 - c.length) ++ c).take 32) = beNat c := by
  rw [List.take_of_length_le (by simp [zeros]; omega), beNat_append]
  have : beNat (zeros (32 - c.length)) = 0 := by
    rw [zeros, ← beBytes_zero, beNat_beBytes]; simp
  rw [this]; simp

theorem n_le_256_32 : n ≤ 256 ^ 32 := by decide +kernel
theorem n_gt_256_31 : 256 ^ 31 ≤ n := by decide +kernel

theorem derIntegerValue_eq {c rest : Bytes} (hm : DerMinimal c) :
    derIntegerValue c.length (c ++ rest) = derScalar (twosComplement c) := by
  obtain ⟨h0, hmin⟩ := hm
  match c, h0 with
  | a :: t, _ =>
    have hlt := beNat_lt (a :: t)
    have hcons := beNat_cons a t
    have key : ∀ (d : Bytes), (d ≠ [] → (a.toNat < 128 → d.length > 32 → n ≤ beNat d)) →
        d = (if a = 0 then t else a :: t) →
        derIntegerValue (a :: t).length (a :: t ++ rest) = 
          if a.toNat < 128 ∧ beNat d < n then ((beNat d : ℕ) : Fn) else 0 := by
      intro d hd0 hd
      have hrl : (if (a :: t).length > 0 ∧ (a :: t ++ rest).headD 0 = 0 then (a :: t).length - 1
          else (a :: t).length) = d.length := by
        rw [hd]
        by_cases ha : a = 0 <;> simp [ha]
      have hrs : (if (a :: t).length > 0 ∧ (a :: t ++ rest).headD 0 = 0 then
          (a :: t ++ rest).drop 1 else (a :: t ++ rest)) = d ++ rest := by
        rw [hd]
        by_cases ha : a = 0 <;> simp [ha]
      unfold derIntegerValue
      simp only
      rw [hrl, hrs, List.take_left' rfl]
      have hu := (u8_and_80 a).2.2.1
      rw [show (a :: t ++ rest).headD 0 = a from rfl, hu]
      by_cases ha : 128 ≤ a.toNat
      · rw [if_neg (show ¬ (a.toNat < 128 ∧ beNat d < n) by omega)]
        simp [ha]
      · by_cases hl : d.length > 32
        · have := hd0 (by rintro rfl; simp at hl) (by omega) hl
          rw [if_neg (show ¬ (a.toNat < 128 ∧ beNat d < n) by omega)]
          simp [ha, hl]
        · have hp := scSetB32_padded (c := d) (by omega)
          simp only [scSetB32, hp, ha, hl, decide_false, if_false, Bool.not_false, if_true]
          have ha' : a.toNat < 128 := by omega
          by_cases hn : beNat d < n
          · simp [hn, ha']
          · simp [hn, not_lt.1 hn, ha']
    rw [key _ ?_ rfl]
    · unfold derScalar twosComplement
      rw [show (a :: t).headD 0 = a from rfl]
      by_cases ha : a = 0
      · subst ha
        rw [if_pos rfl]
        have : beNat (0 :: t) = beNat t := by rw [hcons]; simp
        rw [this]
        simp
      · rw [if_neg ha]
        by_cases h128 : a.toNat ≥ 128
        · rw [if_neg (by omega), if_pos h128, if_neg]
          intro h
          have : ((256 : ℤ)) ^ (a :: t).length = ((256 ^ (a :: t).length : ℕ) : ℤ) := by push_cast; rfl
          rw [this] at h
          omega
        · rw [if_neg h128]
          simp only [Nat.cast_nonneg, true_and, Nat.cast_lt]
          simp [not_le.1 h128]
    · intro hne h1 h2
      by_cases ha : a = 0
      · rw [if_pos ha] at h2 hne ⊢
        obtain ⟨b, t', rfl⟩ := List.exists_cons_of_ne_nil hne
        · have hh := (hmin a b t' rfl).1
          have hb : 128 ≤ b.toNat := by
            by_contra hb
            exact hh ⟨by rw [ha]; rfl, by omega⟩
          have := beNat_ge (c := b :: t') (by
            rw [List.headD_cons]
            rintro rfl
            simp at hb)
          refine le_trans n_le_256_32 (le_trans (Nat.pow_le_pow_right (by norm_num) ?_) this)
          omega
      · rw [if_neg ha] at h2 hne ⊢
        have := beNat_ge (c := a :: t) (by rw [List.headD_cons]; exact ha)
        refine le_trans n_le_256_32 (le_trans (Nat.pow_le_pow_right (by norm_num) ?_) this)
        omega

theorem derParseInteger_ne_ub {b : Bytes} (hb : b.length < 2 ^ 64) : derParseInteger b ≠ .ub := by
  unfold derParseInteger
  match b with
  | [] => simp
  | t :: sig =>
    simp only
    split_ifs with h1
    · simp
    · have := derReadLen_ne_ub (b := sig) (by simp at hb; omega)
      match h : derReadLen sig with
      | .ub => exact absurd h this
      | .fail => simp
      | .ok (rlen, sig') =>
        simp only
        split_ifs with h2
        · simp
        · match sig' with
          | [] => simp at h2
          | s0 :: tl =>
            simp only
            split_ifs with h3 h4 h5
            · obtain ⟨_, h3, rfl⟩ := h3
              simp at h2; omega
            · simp
            · simp
            · simp

theorem derMinimal_iff (a : UInt8) (tl : Bytes) (rlen : ℕ) (h0 : rlen ≠ 0)
    (hl : rlen ≤ (a :: tl).length) :
    DerMinimal ((a :: tl).take rlen) ↔
      ¬ (a = 0x00 ∧ rlen > 1 ∧ tl.headD 0 &&& 0x80 = 0x00) ∧
      ¬ (a = 0xFF ∧ rlen > 1 ∧ tl.headD 0 &&& 0x80 = 0x80) := by
  have hu := u8_and_80 (tl.headD 0)
  have ea : a.toNat = 0 ↔ a = 0 := ⟨fun h => UInt8.toNat.inj (by simpa using h), fun h => by rw [h]; rfl⟩
  have eb : a.toNat = 255 ↔ a = 0xFF :=
    ⟨fun h => UInt8.toNat.inj (by rw [h]; rfl), fun h => by rw [h]; rfl⟩
  obtain ⟨k, rfl⟩ : ∃ k, rlen = k + 1 := ⟨rlen - 1, by omega⟩
  rw [hu.2.1, hu.1, ← ea, ← eb]
  unfold DerMinimal
  rw [List.take_succ_cons]
  match k with
  | 0 => simp
  | k + 1 =>
    match tl, hl with
    | [], hl => simp at hl
    | b :: tl, _ =>
      rw [List.take_succ_cons]
      constructor
      · rintro ⟨-, h⟩
        have := h a b _ rfl
        simp only [List.headD_cons]
        exact ⟨fun h => this.1 ⟨h.1, h.2.2⟩, fun h => this.2 ⟨h.1, h.2.2⟩⟩
      · intro h
        refine ⟨by simp, ?_⟩
        intro a' b' t' he
        simp only [List.headD_cons] at h
        cases he
        exact ⟨fun h' => h.1 ⟨h'.1, by omega, h'.2⟩, fun h' => h.2 ⟨h'.1, by omega, h'.2⟩⟩

theorem derParseInteger_iff {b : Bytes} (hb : b.length < 2 ^ 64) (x : Fn) (rest : Bytes) :
    derParseInteger b = .ok (x, rest) ↔
      ∃ o z, DerInteger o z ∧ b = o ++ rest ∧ x = derScalar z := by
  constructor
  · intro h
    unfold derParseInteger at h
    match b, hb with
    | t :: sig, hb =>
      simp only at h
      split_ifs at h with h1
      cases hr : derReadLen sig with
      | ub => rw [hr] at h; cases h
      | fail => rw [hr] at h; cases h
      | ok q =>
        obtain ⟨rlen, sig'⟩ := q
        rw [hr] at h
        simp only at h
        obtain ⟨o, ho, rfl, -⟩ := (derReadLen_iff (by simp at hb; omega) _ _).1 hr
        split_ifs at h with h2
        match sig', h2, h with
        | s0 :: tl, h2, h =>
          simp only at h
          split_ifs at h with h3 h4 h5
          have hlen : rlen ≤ (s0 :: tl).length := by omega
          have hmin := (derMinimal_iff s0 tl rlen (by omega) hlen).2 ⟨h4, h5⟩
          have hl : ((s0 :: tl).take rlen).length = rlen := by rw [List.length_take]; omega
          have hv := derIntegerValue_eq (rest := (s0 :: tl).drop rlen) hmin
          rw [List.take_append_drop, hl] at hv
          simp only [ne_eq, not_not] at h1
          simp only [Der.ok.injEq, Prod.mk.injEq] at h
          refine ⟨2 :: (o ++ (s0 :: tl).take rlen), _, ⟨o, _, ?_, hmin, rfl, rfl⟩, ?_, ?_⟩
          · rw [hl]; exact ho
          · rw [← h.2, h1, List.cons_append, List.append_assoc, List.take_append_drop]
          · rw [← h.1, hv]
  · rintro ⟨o, z, ⟨l, c, hl, hm, rfl, rfl⟩, rfl, rfl⟩
    unfold derParseInteger
    rw [List.cons_append]
    simp only
    rw [if_neg (by simp)]
    have hr : derReadLen (l ++ c ++ rest) = .ok (c.length, c ++ rest) := by
      rw [derReadLen_iff (by simp at hb ⊢; omega)]
      exact ⟨l, hl, by simp, fun _ => by simp⟩
    rw [hr]
    simp only
    have hm0 := hm.1
    have hc0 : c.length ≠ 0 := by simpa using hm0
    rw [if_neg (by simp [hm0])]
    have hv := derIntegerValue_eq (rest := rest) hm
    match c, hc0 with
    | a :: t, hc0 =>
      have hd := (derMinimal_iff a (t ++ rest) (a :: t).length hc0 (by simp)).1
        (by rw [← List.cons_append, List.take_left' rfl]; exact hm)
      rw [List.cons_append] at hv ⊢
      simp only
      rw [if_neg, if_neg hd.1, if_neg hd.2, hv, ← List.cons_append, List.drop_left' rfl]
      rintro ⟨-, h1, h2⟩
      simp at h1 h2
      simp [h2.1] at h1

theorem derParseInteger_length {b : Bytes} (hb : b.length < 2 ^ 64) {x : Fn} {rest : Bytes}
    (h : derParseInteger b = .ok (x, rest)) : rest.length ≤ b.length := by
  obtain ⟨o, _, _, rfl, _⟩ := (derParseInteger_iff hb x rest).1 h
  simp

theorem ecdsaSigParse_ne_ub {b : Bytes} (hb : b.length < 2 ^ 64) : ecdsaSigParse b ≠ .ub := by
  unfold ecdsaSigParse
  match b, hb with
  | [], _ => simp
  | t :: sig, hb =>
    rw [List.length_cons] at hb
    simp only
    by_cases h1 : t ≠ 0x30
    · rw [if_pos h1]; simp
    rw [if_neg h1]
    cases h : derReadLen sig with
    | ub => exact absurd h (derReadLen_ne_ub (by omega))
    | fail => simp
    | ok q =>
      obtain ⟨rlen, sig1⟩ := q
      obtain ⟨o, -, rfl, -⟩ := (derReadLen_iff (by omega) _ _).1 h
      rw [List.length_append] at hb
      simp only
      by_cases h2 : rlen ≠ sig1.length
      · rw [if_pos h2]; simp
      rw [if_neg h2]
      cases h : derParseInteger sig1 with
      | ub => exact absurd h (derParseInteger_ne_ub (by omega))
      | fail => simp
      | ok q =>
        obtain ⟨rr, sig2⟩ := q
        have hl := derParseInteger_length (by omega) h
        simp only
        cases h : derParseInteger sig2 with
        | ub => exact absurd h (derParseInteger_ne_ub (by omega))
        | fail => simp
        | ok q => simp only; split_ifs <;> simp

theorem ecdsaSigParse_iff {b : Bytes} (hb : b.length < 2 ^ 64) (r s : Fn) :
    ecdsaSigParse b = .ok (r, s) ↔
      ∃ R S, DerSignature b R S ∧ r = derScalar R ∧ s = derScalar S := by
  constructor
  · intro h
    unfold ecdsaSigParse at h
    match b, hb with
    | t :: sig, hb =>
      simp only at h
      split_ifs at h with h1
      cases hr : derReadLen sig with
      | ub => rw [hr] at h; cases h
      | fail => rw [hr] at h; cases h
      | ok q =>
        obtain ⟨rlen, sig'⟩ := q
        rw [hr] at h
        simp only at h
        obtain ⟨l, hl, rfl, -⟩ := (derReadLen_iff (by simp at hb; omega) _ _).1 hr
        split_ifs at h with h2
        simp at hb
        cases hr1 : derParseInteger sig' with
        | ub => rw [hr1] at h; cases h
        | fail => rw [hr1] at h; cases h
        | ok q =>
          obtain ⟨rr, sig1⟩ := q
          rw [hr1] at h
          simp only at h
          have hl1 := derParseInteger_length (by omega) hr1
          obtain ⟨o1, R, d1, rfl, rfl⟩ := (derParseInteger_iff (by omega) _ _).1 hr1
          cases hr2 : derParseInteger sig1 with
          | ub => rw [hr2] at h; cases h
          | fail => rw [hr2] at h; cases h
          | ok q =>
            obtain ⟨rs, sig2⟩ := q
            rw [hr2] at h
            simp only at h
            obtain ⟨o2, S, d2, rfl, rfl⟩ := (derParseInteger_iff (by omega) _ _).1 hr2
            split_ifs at h with h3
            simp only [ne_eq, not_not] at h1 h2 h3
            subst h3
            cases h
            rw [List.append_nil] at h2
            exact ⟨R, S, ⟨l, o1, o2, d1, d2, by rw [← h2]; exact hl, by rw [h1]; simp⟩, rfl, rfl⟩
  · rintro ⟨R, S, ⟨l, a, b, ha, hb', hl, rfl⟩, rfl, rfl⟩
    simp at hb
    unfold ecdsaSigParse
    simp only
    rw [if_neg (by simp)]
    have hr : derReadLen (l ++ (a ++ b)) = .ok ((a ++ b).length, a ++ b) := by
      rw [derReadLen_iff (by simp; omega)]
      exact ⟨l, hl, rfl, fun _ => le_refl _⟩
    have h1 : derParseInteger (a ++ b) = .ok (derScalar R, b) := by
      rw [derParseInteger_iff (by simp; omega)]
      exact ⟨a, R, ha, rfl, rfl⟩
    have h2 : derParseInteger b = .ok (derScalar S, []) := by
      rw [derParseInteger_iff (by omega)]
      exact ⟨b, S, hb', by simp, rfl⟩
    rw [hr]
    simp only
    rw [if_neg (by simp), h1]
    simp only
    rw [h2]
    simp

end Secp
