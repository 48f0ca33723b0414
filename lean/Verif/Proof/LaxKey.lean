import Verif.Proof.Lax

/-! # Importing private keys (helpers for C76) -/

namespace Secp
open Model Spec

theorem and7f {b : UInt8} (h : 128 ≤ b.toNat) : (b &&& 0x7F).toNat = b.toNat - 128 := by
  have h' : ∀ k : Fin 256, 128 ≤ (UInt8.ofNat k).toNat → (UInt8.ofNat k &&& 0x7F).toNat =
    (UInt8.ofNat k).toNat - 128 := by decide +kernel
  have := h' ⟨b.toNat, b.toNat_lt⟩
  rw [show UInt8.ofNat ((⟨b.toNat, b.toNat_lt⟩ : Fin 256) : ℕ) = b by apply UInt8.toNat.inj; simp] at this
  exact this h

theorem or_shift (a b : UInt8) : a.toNat ||| b.toNat <<< 8 = b.toNat * 256 + a.toNat := by
  have := Nat.shiftLeft_add_eq_or_of_lt (b := a.toNat) (i := 8) a.toNat_lt b.toNat
  rw [Nat.or_comm, ← this, Nat.shiftLeft_eq]

theorem importHeader_spec (inp : Bytes) :
    (∃ l s, (l.length = 1 ∨ l.length = 2) ∧ beNat l ≤ s.length ∧
      inp = 0x30 :: UInt8.ofNat (0x80 + l.length) :: (l ++ s) ∧
      privkeyImportHeader inp = .ok (2 + l.length)) ∨
    (privkeyImportHeader inp = .fail ∧ ∀ l s : Bytes, (l.length = 1 ∨ l.length = 2) → beNat l ≤ s.length →
      inp ≠ 0x30 :: UInt8.ofNat (0x80 + l.length) :: (l ++ s)) := by
  unfold privkeyImportHeader
  dsimp only
  match inp with
  | [] => exact Or.inr ⟨by simp, by simp⟩
  | [t] =>
    refine Or.inr ⟨?_, by simp⟩
    rw [if_neg (by simp), rdAt_zero, bind_ok]
    by_cases ht : t = 0x30
    · rw [if_neg (by simpa using ht), if_pos (by simp)]
    · rw [if_pos ht]
  | t :: c :: s =>
    rw [if_neg (by simp), rdAt_zero, bind_ok]
    by_cases ht : t = 0x30
    swap
    · rw [if_pos ht]
      exact Or.inr ⟨rfl, fun l s _ _ e => ht (List.cons.inj e).1⟩
    rw [if_neg (by simpa using ht), if_neg (by simp), rdAt_one, bind_ok]
    have hne : ∀ l s' : Bytes, (l.length = 1 ∨ l.length = 2) →
        t :: c :: s = 0x30 :: UInt8.ofNat (0x80 + l.length) :: (l ++ s') →
        c.toNat = 128 + l.length ∧ s = l ++ s' := by
      intro l s' hl e
      simp only [List.cons.injEq] at e
      refine ⟨?_, e.2.2⟩
      rw [e.2.1, toNat_ofNat' (by omega)]
    by_cases h80 : 128 ≤ c.toNat
    swap
    · rw [if_pos (by by_contra h; exact h80 ((and80 c).1 h))]
      refine Or.inr ⟨rfl, fun l s' hl _ e => ?_⟩
      have := (hne l s' hl e).1
      omega
    rw [if_neg ((and80 c).2 h80), and7f h80]
    by_cases hlb : c.toNat - 128 < 1 ∨ c.toNat - 128 > 2
    · rw [if_pos hlb]
      refine Or.inr ⟨rfl, fun l s' hl _ e => ?_⟩
      have := (hne l s' hl e).1
      omega
    rw [if_neg hlb]
    by_cases h1 : c.toNat - 128 = 1
    · rw [h1]
      have hc : c = UInt8.ofNat (0x80 + 1) := by
        rw [show 0x80 + 1 = c.toNat by omega, ofNat_toNat']
      match s with
      | [] =>
        rw [if_pos (by simp)]
        refine Or.inr ⟨rfl, fun l s' hl _ e => ?_⟩
        have := hne l s' hl e
        have := congrArg List.length this.2
        simp at this
        omega
      | lo :: s =>
        rw [if_neg (by simp), show rdAt (t :: c :: lo :: s) (2 + 1 - 1) = .ok lo from rfl, bind_ok,
          if_neg (show ¬ 1 > 1 by norm_num), bind_ok, if_neg (show ¬ 1 > 1 by norm_num), Nat.or_zero]
        by_cases hle : lo.toNat ≤ s.length
        · rw [if_neg (by simp; omega)]
          exact Or.inl ⟨[lo], s, Or.inl rfl, by rw [beNat_singleton]; exact hle, by rw [ht, hc]; rfl, rfl⟩
        · rw [if_pos (by simp; omega)]
          refine Or.inr ⟨rfl, fun l s' hl hv e => ?_⟩
          obtain ⟨e1, e2⟩ := hne l s' hl e
          match l, hl with
          | [a], _ =>
            simp only [List.singleton_append, List.cons.injEq] at e2
            rw [beNat_singleton, ← e2.1, ← e2.2] at hv
            exact hle hv
          | [_, _], _ => simp at e1; omega
    · have h2 : c.toNat - 128 = 2 := by omega
      rw [h2]
      have hc : c = UInt8.ofNat (0x80 + 2) := by
        rw [show 0x80 + 2 = c.toNat by omega, ofNat_toNat']
      match s with
      | [] =>
        rw [if_pos (by simp)]
        refine Or.inr ⟨rfl, fun l s' hl _ e => ?_⟩
        have := hne l s' hl e
        have := congrArg List.length this.2
        simp at this
        omega
      | [a] =>
        rw [if_pos (by simp)]
        refine Or.inr ⟨rfl, fun l s' hl _ e => ?_⟩
        have := hne l s' hl e
        have := congrArg List.length this.2
        simp at this
        omega
      | hi :: lo :: s =>
        rw [if_neg (by simp), show rdAt (t :: c :: hi :: lo :: s) (2 + 2 - 1) = .ok lo from rfl, bind_ok,
          if_pos (show 2 > 1 by norm_num), show rdAt (t :: c :: hi :: lo :: s) (2 + 2 - 2) = .ok hi from rfl, bind_ok,
          if_pos (show 2 > 1 by norm_num), or_shift]
        have hv2 : beNat [hi, lo] = hi.toNat * 256 + lo.toNat := by
          rw [beNat_cons, beNat_singleton]; rfl
        by_cases hle : hi.toNat * 256 + lo.toNat ≤ s.length
        · rw [if_neg (by simp; omega)]
          exact Or.inl ⟨[hi, lo], s, Or.inr rfl, by rw [hv2]; exact hle, by rw [ht, hc]; rfl, rfl⟩
        · rw [if_pos (by simp; omega)]
          refine Or.inr ⟨rfl, fun l s' hl hv e => ?_⟩
          obtain ⟨e1, e2⟩ := hne l s' hl e
          match l, hl with
          | [a], _ => simp at e1; omega
          | [a, b], _ =>
            simp only [List.cons_append, List.nil_append, List.cons.injEq] at e2
            rw [← e2.1, ← e2.2.1, ← e2.2.2, hv2] at hv
            exact hle hv

theorem importKey_spec (pre s : Bytes) :
    (∃ key rest : Bytes, key.length ≤ 32 ∧ s = [2, 1, 1, 4, UInt8.ofNat key.length] ++ key ++ rest ∧
      privkeyImportKey (pre ++ s) pre.length = .ok (List.replicate (32 - key.length) 0 ++ key)) ∨
    (privkeyImportKey (pre ++ s) pre.length = .fail ∧ ∀ key rest : Bytes, key.length ≤ 32 →
      s ≠ [2, 1, 1, 4, UInt8.ofNat key.length] ++ key ++ rest) := by
  unfold privkeyImportKey
  dsimp only
  match s with
  | [] => exact Or.inr ⟨by simp, by simp⟩
  | [_] => exact Or.inr ⟨by simp, by simp⟩
  | [_, _] => exact Or.inr ⟨by simp, by simp⟩
  | v0 :: v1 :: v2 :: s =>
    rw [if_neg (by simp), rdAt_at' (pre := pre) (b := v0) (t := v1 :: v2 :: s) rfl rfl, bind_ok,
      rdAt_at' (pre := pre ++ [v0]) (b := v1) (t := v2 :: s) (by simp) (by simp), bind_ok,
      rdAt_at' (pre := pre ++ [v0, v1]) (b := v2) (t := s) (by simp) (by simp), bind_ok]
    by_cases hv : v0 ≠ 0x02 ∨ v1 ≠ 0x01 ∨ v2 ≠ 0x01
    · rw [if_pos hv]
      refine Or.inr ⟨rfl, fun key rest _ e => ?_⟩
      simp only [List.cons_append, List.nil_append, List.cons.injEq] at e
      rcases hv with h | h | h
      · exact h e.1
      · exact h e.2.1
      · exact h e.2.2.1
    · rw [if_neg hv]
      simp only [ne_eq, not_or, not_not] at hv
      obtain ⟨rfl, rfl, rfl⟩ := hv
      match s with
      | [] => exact Or.inr ⟨by simp, by simp⟩
      | [_] => exact Or.inr ⟨by simp, by simp⟩
      | t :: k :: s =>
        rw [if_neg (by simp; omega), rdAt_at' (pre := pre ++ [2, 1, 1]) (b := t) (t := k :: s) (by simp) (by simp),
          bind_ok, rdAt_at' (pre := pre ++ [2, 1, 1, t]) (b := k) (t := s) (by simp) (by simp), bind_ok]
        have hk : k > 0x20 ↔ 32 < k.toNat := by rw [gt_iff_lt, UInt8.lt_iff_toNat_lt]; rfl
        by_cases hb : t ≠ 0x04 ∨ k > 0x20 ∨ (pre ++ 2 :: 1 :: 1 :: t :: k :: s).length <
            pre.length + 3 + 2 + k.toNat
        · rw [if_pos hb]
          refine Or.inr ⟨rfl, fun key rest hl e => ?_⟩
          simp only [List.cons_append, List.nil_append, List.cons.injEq] at e
          have hkk : k.toNat = key.length := by rw [e.2.2.2.2.1, toNat_ofNat' (by omega)]
          rcases hb with h | h | h
          · exact h e.2.2.2.1
          · rw [hk] at h; omega
          · rw [e.2.2.2.2.2] at h
            simp at h
            omega
        · rw [if_neg hb]
          simp only [ne_eq, not_or, not_not, hk] at hb
          obtain ⟨rfl, hb1, hb2⟩ := hb
          have hks : k.toNat ≤ s.length := by simp at hb2; omega
          have hlen : (s.take k.toNat).length = k.toNat := by simp [hks]
          refine Or.inl ⟨s.take k.toNat, s.drop k.toNat, by omega, ?_, ?_⟩
          · rw [hlen, ofNat_toNat']
            simp
          · rw [copyAt, if_pos (by omega), bind_ok, hlen]
            have e : pre ++ 2 :: 1 :: 1 :: 4 :: k :: s = (pre ++ [2, 1, 1, 4, k]) ++ s := by simp
            rw [e, List.drop_left' (by simp), put, hlen]
            congr 1
            rw [zeros, List.take_replicate, List.drop_eq_nil_of_le (by simp; omega), List.append_nil,
              Nat.min_eq_left (by omega)]

theorem Spec.LaxPrivateKey.unique {o key key' : Bytes} (h : LaxPrivateKey o key) (h' : LaxPrivateKey o key') :
    key = key' := by
  obtain ⟨l, rest, h1, h2, h3, h4⟩ := h
  obtain ⟨l', rest', h1', h2', h3', h4'⟩ := h'
  rw [h4] at h4'
  simp only [List.cons.injEq, true_and] at h4'
  have := congrArg UInt8.toNat h4'.1
  rw [toNat_ofNat' (by omega), toNat_ofNat' (by omega)] at this
  obtain ⟨-, e⟩ := List.append_inj h4'.2 (by omega)
  simp only [List.cons_append, List.nil_append, List.cons.injEq, true_and] at e
  have := congrArg UInt8.toNat e.1
  rw [toNat_ofNat' (by omega), toNat_ofNat' (by omega)] at this
  exact (List.append_inj e.2 this).1

theorem import_spec (inp : Bytes) :
    (∃ key, LaxPrivateKey inp key ∧ (privkeyImportHeader inp).bind (privkeyImportKey inp) =
      .ok (List.replicate (32 - key.length) 0 ++ key)) ∨
    ((privkeyImportHeader inp).bind (privkeyImportKey inp) = .fail ∧ ¬ ∃ key, LaxPrivateKey inp key) := by
  rcases importHeader_spec inp with ⟨l, s, h1, h2, h3, h4⟩ | ⟨h1, h2⟩
  · rw [h4, bind_ok]
    have e : inp = (0x30 :: UInt8.ofNat (0x80 + l.length) :: l) ++ s := by rw [h3]; rfl
    have e2 : 2 + l.length = (0x30 :: UInt8.ofNat (0x80 + l.length) :: l).length := by simp; omega
    rw [e2]
    have hk := importKey_spec (0x30 :: UInt8.ofNat (0x80 + l.length) :: l) s
    rw [← e] at hk
    rcases hk with ⟨key, rest, k1, k2, k3⟩ | ⟨k1, k2⟩
    · exact Or.inl ⟨key, ⟨l, rest, h1, k1, by rw [← k2]; exact h2, by rw [h3, k2]⟩, k3⟩
    · refine Or.inr ⟨k1, ?_⟩
      rintro ⟨key, l', rest, g1, g2, g3, g4⟩
      rw [h3] at g4
      simp only [List.cons.injEq, true_and] at g4
      have := congrArg UInt8.toNat g4.1
      rw [toNat_ofNat' (by omega), toNat_ofNat' (by omega)] at this
      obtain ⟨-, e⟩ := List.append_inj g4.2 (by omega)
      exact k2 _ _ g2 e
  · rw [h1, bind_fail]
    refine Or.inr ⟨rfl, ?_⟩
    rintro ⟨key, l', rest, g1, g2, g3, g4⟩
    exact h2 _ _ g1 g3 g4

end Secp
