import Verif.Proof.Der
import Verif.Model.ApiEcdsa
import Verif.Proof.KeyApi

/-! # The DER serializer -/

namespace Secp
open Model Spec

theorem take_sigObject (r s : Fn) : (sigObject r s).take 32 = leBytes 32 r.val := by
  rw [sigObject, List.take_left' (leBytes_length _ _)]

theorem drop_sigObject (r s : Fn) : (sigObject r s).drop 32 = leBytes 32 s.val := by
  rw [sigObject, List.drop_left' (leBytes_length _ _)]

theorem sigObject_length (r s : Fn) : (sigObject r s).length = 64 := by
  simp [sigObject, leBytes_length]

theorem leNat_fn (r : Fn) : leNat (leBytes 32 r.val) = r.val := by
  rw [leNat_leBytes, Nat.mod_eq_of_lt (fn_lt r)]

theorem signatureLoad_obj (r s : Fn) : signatureLoad (sigObject r s) = (r, s) := by
  unfold signatureLoad
  rw [take_sigObject, drop_sigObject, List.take_of_length_le (by rw [leBytes_length]), leNat_fn,
    leNat_fn, ZMod.natCast_zmod_val, ZMod.natCast_zmod_val]

theorem signatureSave_eq (r s : Fn) : signatureSave r s = sigObject r s := rfl

theorem sigObject_injective {r s r' s' : Fn} (h : sigObject r s = sigObject r' s') :
    r = r' ∧ s = s' := by
  have := congrArg signatureLoad h
  rw [signatureLoad_obj, signatureLoad_obj] at this
  exact ⟨congrArg Prod.fst this, congrArg Prod.snd this⟩

theorem derTrim_spec (l : Bytes) (h0 : l ≠ []) (h : (l.headD 0).toNat < 128) :
    DerMinimal (derTrim l) ∧ ((derTrim l).headD 0).toNat < 128 ∧ beNat (derTrim l) = beNat l ∧
      (derTrim l).length ≤ l.length := by
  induction l with
  | nil => exact absurd rfl h0
  | cons a t ih =>
    match t, ih with
    | [], _ =>
      refine ⟨⟨by simp [derTrim], ?_⟩, h, rfl, le_refl _⟩
      intro a b t h; simp [derTrim] at h
    | b :: t, ih =>
      rw [derTrim]
      by_cases hc : a = 0 ∧ b < 0x80
      · rw [if_pos hc]
        have hb : b.toNat < 128 := by
          have := UInt8.lt_iff_toNat_lt.1 hc.2
          exact this
        obtain ⟨i1, i2, i3, i4⟩ := ih (by simp) hb
        refine ⟨i1, i2, ?_, ?_⟩
        · rw [i3, beNat_cons a, hc.1]
          simp
        · simp at i4 ⊢; omega
      · rw [if_neg hc]
        refine ⟨⟨by simp, ?_⟩, h, rfl, le_refl _⟩
        intro a' b' t' he
        cases he
        have ha : a.toNat < 128 := h
        refine ⟨fun h' => hc ⟨UInt8.toNat.inj (by simpa using h'.1), ?_⟩, fun h' => by omega⟩
        exact UInt8.lt_iff_toNat_lt.2 h'.2

/-- The contents octets that the serializer writes for `a`. -/
def derContents (a : Fn) : Bytes := derTrim (0 :: scGetB32 a)

theorem derContents_spec (a : Fn) : DerMinimal (derContents a) ∧
    twosComplement (derContents a) = a.val ∧ 1 ≤ (derContents a).length ∧
    (derContents a).length ≤ 33 := by
  obtain ⟨h1, h2, h3, h4⟩ := derTrim_spec (0 :: scGetB32 a) (by simp) (by simp)
  refine ⟨h1, ?_, ?_, ?_⟩
  · unfold twosComplement
    rw [if_neg (by rw [derContents]; omega), derContents, h3, beNat_cons, beNat_scGetB32]
    simp
  · have := h1.1
    have : (derTrim (0 :: scGetB32 a)).length ≠ 0 := by simpa using this
    unfold derContents
    omega
  · rw [List.length_cons, scGetB32_length] at h4
    exact h4

/-- A SEQUENCE of two INTEGERs with short lengths and the given contents octets. -/
def derFrame (a b : Bytes) : Bytes :=
  [0x30, UInt8.ofNat (4 + b.length + a.length)] ++ ([2, UInt8.ofNat a.length] ++ a) ++
    ([2, UInt8.ofNat b.length] ++ b)

theorem derFrame_length (a b : Bytes) : (derFrame a b).length = 6 + b.length + a.length := by
  simp [derFrame]; omega

theorem derFrame_sig {a b : Bytes} (ha : DerMinimal a) (hb : DerMinimal b) (la : a.length ≤ 33)
    (lb : b.length ≤ 33) : DerSignature (derFrame a b) (twosComplement a) (twosComplement b) := by
  have hi : ∀ a : Bytes, DerMinimal a → a.length ≤ 33 →
      DerInteger ([2, UInt8.ofNat a.length] ++ a) (twosComplement a) :=
    fun a h1 h2 => ⟨[UInt8.ofNat a.length], a, Or.inl ⟨by omega, rfl⟩, h1, rfl, rfl⟩
  have hlen : ([2, UInt8.ofNat a.length] ++ a ++ ([2, UInt8.ofNat b.length] ++ b)).length =
      4 + b.length + a.length := by simp; omega
  refine ⟨[UInt8.ofNat (4 + b.length + a.length)], _, _, hi a ha la, hi b hb lb, Or.inl ⟨?_, ?_⟩, ?_⟩
  · omega
  · rw [hlen]
  · simp [derFrame]

theorem put_append (pre rest b : Bytes) :
    put (pre ++ rest) pre.length b = (pre ++ b) ++ rest.drop b.length := by
  unfold put
  rw [List.take_left' rfl, List.drop_append]
  simp

theorem put_at {pre rest b : Bytes} {k : ℕ} (h : pre.length = k) :
    put (pre ++ rest) k b = (pre ++ b) ++ rest.drop b.length := by
  rw [← h, put_append]

theorem put_frame (out a b : Bytes) :
    put (put (put (put (put (put (put (put out 0 [0x30]) 1 [UInt8.ofNat (4 + b.length + a.length)])
      2 [0x02]) 3 [UInt8.ofNat a.length]) 4 a) (4 + a.length) [0x02]) (5 + a.length)
      [UInt8.ofNat b.length]) (a.length + 6) b =
    derFrame a b ++ out.drop (6 + b.length + a.length) := by
  rw [← List.nil_append out, put_at (k := 0) rfl, put_at (k := 1) rfl, put_at (k := 2) rfl,
    put_at (k := 3) rfl, put_at (k := 4) rfl, put_at (by simp <;> omega), put_at (by simp <;> omega),
    put_at (by simp <;> omega)]
  simp only [List.drop_drop, derFrame, List.nil_append, List.length_singleton, List.append_assoc,
    List.cons_append]
  rw [show ∀ x : ℕ, x = 6 + b.length + a.length → out.drop x = out.drop (6 + b.length + a.length) from
    fun x h => by rw [h]]
  omega

/-- The encoding that the serializer writes. -/
def derEncoding (r s : Fn) : Bytes := derFrame (derContents r) (derContents s)

theorem derEncoding_length (r s : Fn) : (derEncoding r s).length =
    6 + (derContents s).length + (derContents r).length := derFrame_length _ _

theorem derEncoding_bounds (r s : Fn) :
    8 ≤ (derEncoding r s).length ∧ (derEncoding r s).length ≤ 72 := by
  have hr := (derContents_spec r).2.2
  have hs := (derContents_spec s).2.2
  rw [derEncoding_length]
  omega

theorem derEncoding_sig (r s : Fn) : DerSignature (derEncoding r s) r.val s.val := by
  obtain ⟨r1, r2, -, r3⟩ := derContents_spec r
  obtain ⟨s1, s2, -, s3⟩ := derContents_spec s
  have := derFrame_sig r1 s1 r3 s3
  rwa [r2, s2] at this

theorem ecdsaSigSerialize_eq (out : Bytes) (size : ℕ) (r s : Fn) :
    ecdsaSigSerialize out size r s =
      if size < (derEncoding r s).length then (out, (derEncoding r s).length, false)
      else (derEncoding r s ++ out.drop (derEncoding r s).length, (derEncoding r s).length, true) := by
  rw [derEncoding_length]
  unfold ecdsaSigSerialize
  rw [show derTrim (0 :: scGetB32 r) = derContents r from rfl,
    show derTrim (0 :: scGetB32 s) = derContents s from rfl, derEncoding]
  generalize derContents r = a
  generalize derContents s = b
  simp only
  rw [put_frame]

theorem derScalar_val (r : Fn) : derScalar r.val = r := by
  unfold derScalar
  rw [if_pos ⟨by positivity, by exact_mod_cast ZMod.val_lt r⟩]
  simp

/-! ## Uniqueness of the encoding -/

theorem derLength_unique {o o' : Bytes} {L : ℕ} (h : DerLength o L) (h' : DerLength o' L) :
    o = o' := by
  rcases h with ⟨h1, rfl⟩ | ⟨h1, c, hc, h0, rfl, hv⟩ <;>
  rcases h' with ⟨h1', rfl⟩ | ⟨h1', c', hc', h0', rfl, hv'⟩
  · rfl
  · omega
  · omega
  · have hl : c.length = c'.length := by
      have a1 := beNat_ge h0
      have a2 := beNat_lt c
      have b1 := beNat_ge h0'
      have b2 := beNat_lt c'
      rw [hv] at a1 a2
      rw [hv'] at b1 b2
      have e1 := (Nat.pow_lt_pow_iff_right (by norm_num)).1 (lt_of_le_of_lt a1 b2)
      have e2 := (Nat.pow_lt_pow_iff_right (by norm_num)).1 (lt_of_le_of_lt b1 a2)
      have : 0 < c.length := by
        match c, h0 with
        | _ :: _, _ => simp
      have : 0 < c'.length := by
        match c', h0' with
        | _ :: _, _ => simp
      omega
    rw [beNat_inj hl (hv.trans hv'.symm)]

theorem twosComplement_nonneg {c : Bytes} (h : 0 ≤ twosComplement c) :
    (c.headD 0).toNat < 128 ∧ twosComplement c = beNat c := by
  unfold twosComplement at h ⊢
  by_cases h1 : (c.headD 0).toNat ≥ 128
  · rw [if_pos h1] at h
    have := beNat_lt c
    have : ((beNat c : ℕ) : ℤ) < 256 ^ c.length := by exact_mod_cast this
    omega
  · rw [if_neg h1]
    exact ⟨by omega, rfl⟩

theorem minimal_bounds {c : Bytes} (hm : DerMinimal c) (h : (c.headD 0).toNat < 128) :
    0 < c.length ∧ beNat c < 128 * 256 ^ (c.length - 1) ∧
      (1 < c.length → 128 * 256 ^ (c.length - 2) ≤ beNat c) := by
  match c, hm.1 with
  | a :: t, _ =>
    have ht := beNat_lt t
    have ha : a.toNat < 128 := h
    refine ⟨by simp, ?_, ?_⟩
    · rw [beNat_cons, List.length_cons, Nat.add_sub_cancel]
      nlinarith
    · intro h1
      match t, h1 with
      | b :: t, _ =>
        have := (hm.2 a b t rfl).1
        rw [beNat_cons, beNat_cons]
        simp only [List.length_cons, show t.length + 1 + 1 - 2 = t.length by omega]
        rcases Nat.eq_zero_or_pos a.toNat with h0 | h0
        · have hb : 128 ≤ b.toNat := by
            by_contra hb
            exact this ⟨h0, by omega⟩
          have := Nat.mul_le_mul_right (256 ^ t.length) hb
          omega
        · have := Nat.mul_le_mul_right (256 ^ (t.length + 1)) h0
          rw [pow_succ] at this ⊢
          omega

theorem minimal_unique {c c' : Bytes} (hm : DerMinimal c) (hm' : DerMinimal c')
    (h : 0 ≤ twosComplement c) (he : twosComplement c = twosComplement c') : c = c' := by
  obtain ⟨h1, h2⟩ := twosComplement_nonneg h
  obtain ⟨h1', h2'⟩ := twosComplement_nonneg (he ▸ h)
  have hv : beNat c = beNat c' := by
    have := h2.symm.trans (he.trans h2')
    exact_mod_cast this
  obtain ⟨a1, a2, a3⟩ := minimal_bounds hm h1
  obtain ⟨b1, b2, b3⟩ := minimal_bounds hm' h1'
  refine beNat_inj ?_ hv
  rw [hv] at a2 a3
  rcases lt_trichotomy c.length c'.length with hl | hl | hl
  · have h3 := lt_of_le_of_lt (b3 (by omega)) a2
    have h4 := (Nat.pow_lt_pow_iff_right (by norm_num)).1 (Nat.lt_of_mul_lt_mul_left h3)
    omega
  · exact hl
  · have h3 := lt_of_le_of_lt (a3 (by omega)) b2
    have h4 := (Nat.pow_lt_pow_iff_right (by norm_num)).1 (Nat.lt_of_mul_lt_mul_left h3)
    omega

theorem derInteger_unique {o o' : Bytes} {z : ℤ} (h0 : 0 ≤ z) (h : DerInteger o z)
    (h' : DerInteger o' z) : o = o' := by
  obtain ⟨l, c, hl, hm, rfl, rfl⟩ := h
  obtain ⟨l', c', hl', hm', he, rfl⟩ := h'
  have := minimal_unique hm hm' h0 he.symm
  subst this
  rw [derLength_unique hl hl']

theorem derSignature_unique {o o' : Bytes} {r s : ℤ} (hr : 0 ≤ r) (hs : 0 ≤ s)
    (h : DerSignature o r s) (h' : DerSignature o' r s) : o = o' := by
  obtain ⟨l, a, b, ha, hb, hl, rfl⟩ := h
  obtain ⟨l', a', b', ha', hb', hl', rfl⟩ := h'
  have e1 := derInteger_unique hr ha ha'
  have e2 := derInteger_unique hs hb hb'
  subst e1 e2
  rw [derLength_unique hl hl']

end Secp
