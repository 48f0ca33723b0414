import Verif.Model.Contrib
import Verif.Spec.Lax
import Verif.Proof.DerSer

/-! # The lax DER parsers (helpers for C76) -/

namespace Secp
open Model Spec

theorem bind_ok {α β : Type} (a : α) (f : α → Der β) : (Der.ok a).bind f = f a := rfl
theorem bind_fail {α β : Type} (f : α → Der β) : (Der.fail : Der α).bind f = .fail := rfl

theorem rdAt_at (pre t : Bytes) (b : UInt8) : rdAt (pre ++ b :: t) pre.length = .ok b := by
  simp [rdAt]

theorem rdAt_at' {inp pre t : Bytes} {b : UInt8} {k : ℕ} (h : inp = pre ++ b :: t) (hk : k = pre.length) :
    rdAt inp k = .ok b := by subst h hk; exact rdAt_at _ _ _

theorem rdAt_zero (t : Bytes) (b : UInt8) : rdAt (b :: t) 0 = .ok b := rfl
theorem rdAt_one (t : Bytes) (a b : UInt8) : rdAt (a :: b :: t) 1 = .ok b := rfl

theorem sizeSub_eq {W a b : ℕ} (h : b ≤ a) (ha : a < 256 ^ W) : sizeSub W a b = a - b := by
  have e : 2 ^ (8 * W) = 256 ^ W := by rw [pow_mul]; norm_num
  rw [sizeSub, e, show a + 256 ^ W - b = (a - b) + 256 ^ W by omega, Nat.add_mod_right,
    Nat.mod_eq_of_lt (by omega)]

theorem laxZeros_spec (c pre t : Bytes) : ∃ (z : ℕ) (c' : Bytes), c = List.replicate z 0 ++ c' ∧
    c'.headD 1 ≠ 0 ∧ laxZeros (pre ++ (c ++ t)) c.length pre.length = .ok (c'.length, pre.length + z) := by
  induction c generalizing pre with
  | nil => exact ⟨0, [], rfl, by simp, rfl⟩
  | cons b c ih =>
    simp only [List.length_cons, laxZeros, List.cons_append]
    rw [rdAt_at' (pre := pre) (b := b) (t := c ++ t) rfl rfl, bind_ok]
    by_cases hb : b = 0
    · obtain ⟨z, c', h1, h2, h3⟩ := ih (pre ++ [b])
      refine ⟨z + 1, c', ?_, h2, ?_⟩
      · rw [hb, List.replicate_succ, List.cons_append, ← h1]
      · rw [if_pos hb]
        simp only [List.append_assoc, List.singleton_append, List.length_append, List.length_cons,
          List.length_nil] at h3
        simpa [Nat.add_assoc, Nat.add_comm 1] using h3
    · exact ⟨0, b :: c, rfl, by simpa using hb, by rw [if_neg hb]; rfl⟩

theorem laxLenLoop_spec {W : ℕ} (c pre t : Bytes) (r : ℕ) (h : r * 256 ^ c.length + beNat c < 256 ^ W) :
    laxLenLoop W (pre ++ (c ++ t)) c.length pre.length r =
      .ok (r * 256 ^ c.length + beNat c, pre.length + c.length) := by
  induction c generalizing pre r with
  | nil => simp [laxLenLoop, beNat_nil]
  | cons b c ih =>
    simp only [List.length_cons, laxLenLoop, List.cons_append]
    rw [rdAt_at' (pre := pre) (b := b) (t := c ++ t) rfl rfl, bind_ok]
    have e : 2 ^ (8 * W) = 256 ^ W := by rw [pow_mul]; norm_num
    rw [beNat_cons, List.length_cons] at h
    have hp : 0 < 256 ^ c.length := by positivity
    have h2 : (r * 256 + b.toNat) * 256 ^ c.length + beNat c < 256 ^ W := by
      have : (r * 256 + b.toNat) * 256 ^ c.length = r * 256 ^ (c.length + 1) + b.toNat * 256 ^ c.length := by
        ring
      omega
    have h3 : r * 256 + b.toNat < 256 ^ W :=
      lt_of_le_of_lt (le_trans (Nat.le_mul_of_pos_right _ hp) (Nat.le_add_right _ _)) h2
    rw [Nat.shiftLeft_eq, e, show (2 : ℕ) ^ 8 = 256 from rfl, Nat.mod_eq_of_lt (a := r * 256) (lt_of_le_of_lt (Nat.le_add_right _ _) h3),
      Nat.mod_eq_of_lt h3]
    have := ih (pre ++ [b]) _ h2
    simp only [List.append_assoc, List.singleton_append, List.length_append, List.length_cons,
      List.length_nil] at this
    rw [Nat.zero_add] at this
    rw [this, beNat_cons]
    congr 2
    · ring
    · omega

theorem and80 (b : UInt8) : (b &&& 0x80 ≠ 0) ↔ 128 ≤ b.toNat := by
  have h : ∀ k : Fin 256, (UInt8.ofNat k &&& 0x80 ≠ 0) ↔ 128 ≤ (UInt8.ofNat k).toNat := by decide +kernel
  have := h ⟨b.toNat, b.toNat_lt⟩
  rwa [show UInt8.ofNat ((⟨b.toNat, b.toNat_lt⟩ : Fin 256) : ℕ) = b by apply UInt8.toNat.inj; simp] at this

theorem beNat_replicate (z : ℕ) (c : Bytes) : beNat (List.replicate z 0 ++ c) = beNat c := by
  induction z with
  | zero => rfl
  | succ z ih => rw [List.replicate_succ, List.cons_append, beNat_cons, ih]; simp

/-- Fewer than `W` octets remain iff the value is below `256^(W-1)`. -/
theorem short_iff {W : ℕ} (hW : 1 ≤ W) {c : Bytes} (h : c.headD 1 ≠ 0) :
    c.length < W ↔ beNat c < 256 ^ (W - 1) := by
  constructor
  · intro hl
    exact lt_of_lt_of_le (beNat_lt c) (Nat.pow_le_pow_right (by norm_num) (by omega))
  · intro hv
    by_contra hl
    cases c with
    | nil => simp at hl; omega
    | cons a t =>
      have h1 := beNat_ge (c := a :: t) (by simpa using h)
      have : 256 ^ (W - 1) ≤ 256 ^ ((a :: t).length - 1) := Nat.pow_le_pow_right (by norm_num) (by omega)
      omega

theorem ofNat_toNat' (b : UInt8) : UInt8.ofNat b.toNat = b := by
  apply UInt8.toNat.inj; simp

theorem toNat_ofNat' {k : ℕ} (h : k < 256) : (UInt8.ofNat k).toNat = k := by
  rw [UInt8.toNat_ofNat']; exact Nat.mod_eq_of_lt h

/-- Length octets are determined by what follows from their first octet. -/
theorem Spec.LaxLength.unique {W len len' : ℕ} {l l' r r' : Bytes} (h : LaxLength W l len)
    (h' : LaxLength W l' len') (e : l ++ r = l' ++ r') : l = l' ∧ len = len' ∧ r = r' := by
  rcases h with ⟨h1, rfl⟩ | ⟨h1, c, h2, rfl, rfl⟩ <;> rcases h' with ⟨h3, rfl⟩ | ⟨h3, c', h4, rfl, rfl⟩
  · simp only [List.singleton_append, List.cons.injEq] at e
    have := congrArg UInt8.toNat e.1
    rw [toNat_ofNat' (by omega), toNat_ofNat' (by omega)] at this
    exact ⟨by rw [this], this, e.2⟩
  · simp only [List.cons_append, List.cons.injEq, List.nil_append] at e
    have := congrArg UInt8.toNat e.1
    rw [toNat_ofNat' (by omega), toNat_ofNat' (by omega)] at this
    omega
  · simp only [List.cons_append, List.cons.injEq, List.nil_append] at e
    have := congrArg UInt8.toNat e.1
    rw [toNat_ofNat' (by omega), toNat_ofNat' (by omega)] at this
    omega
  · simp only [List.cons_append, List.cons.injEq] at e
    have := congrArg UInt8.toNat e.1
    rw [toNat_ofNat' (by omega), toNat_ofNat' (by omega)] at this
    obtain ⟨rfl, rfl⟩ := List.append_inj e.2 (by omega)
    exact ⟨rfl, rfl, rfl⟩

theorem Spec.LaxHeader.unique {l l' r r' : Bytes} (h : LaxHeader l)
    (h' : LaxHeader l') (e : l ++ r = l' ++ r') : l = l' ∧ r = r' := by
  rcases h with ⟨b, h1, rfl⟩ | ⟨c, h2, rfl⟩ <;> rcases h' with ⟨b', h3, rfl⟩ | ⟨c', h4, rfl⟩
  · simp only [List.singleton_append, List.cons.injEq] at e
    exact ⟨by rw [e.1], e.2⟩
  · simp only [List.cons_append, List.cons.injEq, List.nil_append] at e
    have := congrArg UInt8.toNat e.1
    rw [toNat_ofNat' (by omega)] at this
    omega
  · simp only [List.cons_append, List.cons.injEq, List.nil_append] at e
    have := congrArg UInt8.toNat e.1
    rw [toNat_ofNat' (by omega)] at this
    omega
  · simp only [List.cons_append, List.cons.injEq] at e
    have := congrArg UInt8.toNat e.1
    rw [toNat_ofNat' (by omega), toNat_ofNat' (by omega)] at this
    obtain ⟨rfl, rfl⟩ := List.append_inj e.2 (by omega)
    exact ⟨rfl, rfl⟩

theorem Spec.LaxSignature.unique {W r s r' s' : ℕ} {o : Bytes} (h : LaxSignature W o r s)
    (h' : LaxSignature W o r' s') : r = r' ∧ s = s' := by
  obtain ⟨hd, lr, cr, ls, cs, rest, h1, h2, h3, h4, rfl, rfl⟩ := h
  obtain ⟨hd', lr', cr', ls', cs', rest', h1', h2', h3', h4', rfl, rfl⟩ := h'
  rw [h4] at h4'
  obtain ⟨-, e⟩ := h1.unique h1' (List.cons.inj h4').2
  obtain ⟨-, l1, e⟩ := h2.unique h2' (List.cons.inj e).2
  obtain ⟨e1, e2⟩ := List.append_inj e l1
  obtain ⟨-, l2, e3⟩ := h3.unique h3' (List.cons.inj e2).2
  exact ⟨by rw [e1], by rw [(List.append_inj e3 l2).1]⟩

theorem laxReadLen_spec {W : ℕ} (hW : 1 ≤ W) {pre : Bytes} (b : UInt8) (s : Bytes)
    (hl : (pre ++ b :: s).length < 256 ^ W) :
    (∃ l len rest, LaxLength W l len ∧ b :: s = l ++ rest ∧
      laxReadLen W (pre ++ b :: s) pre.length = .ok (len, pre.length + l.length)) ∨
    (laxReadLen W (pre ++ b :: s) pre.length = .fail ∧
      ∀ l len rest, LaxLength W l len → b :: s ≠ l ++ rest) := by
  unfold laxReadLen
  rw [rdAt_at, bind_ok]
  dsimp only
  by_cases h80 : 128 ≤ b.toNat
  · rw [if_pos ((and80 b).2 h80), sizeSub_eq (by simp) hl]
    have hb : b.toNat < 256 := b.toNat_lt
    by_cases hs : b.toNat - 0x80 ≤ s.length
    · rw [if_neg (by simp; omega)]
      obtain ⟨c, rest, rfl, hc⟩ : ∃ c rest, s = c ++ rest ∧ c.length = b.toNat - 0x80 :=
        ⟨s.take (b.toNat - 0x80), s.drop (b.toNat - 0x80), (List.take_append_drop _ _).symm,
          by simp [hs]⟩
      have hb' : b = UInt8.ofNat (128 + c.length) := by
        rw [hc, show 128 + (b.toNat - 0x80) = b.toNat by omega, ofNat_toNat']
      obtain ⟨z, c', e1, e2, e3⟩ := laxZeros_spec c (pre ++ [b]) rest
      simp only [List.append_assoc, List.singleton_append, List.length_append, List.length_cons,
        List.length_nil, Nat.zero_add] at e3
      rw [← hc, e3, bind_ok]
      have hv : beNat c = beNat c' := by rw [e1, beNat_replicate]
      by_cases hlt : c'.length < W
      · rw [if_neg (by omega)]
        have hshort := (short_iff hW e2).1 hlt
        have hle : 256 ^ (W - 1) ≤ 256 ^ W := Nat.pow_le_pow_right (by norm_num) (by omega)
        have := laxLenLoop_spec (W := W) c' (pre ++ b :: List.replicate z 0) rest 0 (by omega)
        rw [show pre ++ b :: List.replicate z 0 ++ (c' ++ rest) = pre ++ b :: (c ++ rest) by
          rw [e1]; simp] at this
        rw [show (pre ++ b :: List.replicate z 0).length = pre.length + 1 + z by simp; omega] at this
        refine Or.inl ⟨b :: c, beNat c, rest, Or.inr ⟨by omega, c, by omega, by rw [← hb'], rfl⟩, rfl, ?_⟩
        rw [this, hv]
        have : c.length = z + c'.length := by rw [e1]; simp
        simp; omega
      · rw [if_pos (by omega)]
        refine Or.inr ⟨rfl, fun l len r hL e => ?_⟩
        rcases hL with ⟨h1, rfl⟩ | ⟨h1, d, h2, rfl, rfl⟩
        · have := congrArg UInt8.toNat (List.cons.inj e).1
          rw [toNat_ofNat' (by omega)] at this
          omega
        · simp only [List.cons_append, List.cons.injEq] at e
          have := congrArg UInt8.toNat e.1
          rw [toNat_ofNat' (by omega)] at this
          obtain ⟨rfl, -⟩ := List.append_inj e.2 (by omega)
          exact hlt ((short_iff hW e2).2 (by omega))
    · rw [if_pos (by simp; omega)]
      refine Or.inr ⟨rfl, fun l len r hL e => ?_⟩
      rcases hL with ⟨h1, rfl⟩ | ⟨h1, d, h2, rfl, rfl⟩
      · have := congrArg UInt8.toNat (List.cons.inj e).1
        rw [toNat_ofNat' (by omega)] at this
        omega
      · simp only [List.cons_append, List.cons.injEq] at e
        have := congrArg UInt8.toNat e.1
        rw [toNat_ofNat' (by omega)] at this
        rw [e.2] at hs
        simp at hs
        omega
  · rw [if_neg (by rw [and80]; exact h80)]
    exact Or.inl ⟨[b], b.toNat, s, Or.inl ⟨by omega, by rw [ofNat_toNat']⟩, rfl, by simp⟩

theorem laxInteger_spec {W : ℕ} (hW : 1 ≤ W) (pre s : Bytes) (hl : (pre ++ s).length < 256 ^ W) :
    (∃ l c rest, LaxLength W l c.length ∧ s = 2 :: (l ++ (c ++ rest)) ∧
      laxInteger W (pre ++ s) pre.length =
        .ok (pre.length + 1 + l.length, c.length, pre.length + 1 + l.length + c.length)) ∨
    (laxInteger W (pre ++ s) pre.length = .fail ∧
      ∀ l c rest, LaxLength W l c.length → s ≠ 2 :: (l ++ (c ++ rest))) := by
  unfold laxInteger
  cases s with
  | nil => exact Or.inr ⟨by simp, by simp⟩
  | cons t s =>
    rw [if_neg (by simp), rdAt_at, bind_ok]
    by_cases ht : t = 2
    · subst ht
      rw [if_neg (by simp)]
      dsimp only
      cases s with
      | nil =>
        rw [if_pos (by simp)]
        refine Or.inr ⟨rfl, fun l c rest h e => ?_⟩
        rcases h with ⟨_, rfl⟩ | ⟨_, _, _, rfl, _⟩ <;> simp at e
      | cons b s =>
        rw [if_neg (by simp)]
        have e0 : pre ++ 2 :: b :: s = (pre ++ [2]) ++ b :: s := by simp
        have e1 : pre.length + 1 = (pre ++ [(2 : UInt8)]).length := by simp
        rw [e0] at hl ⊢
        rw [e1]
        rcases laxReadLen_spec hW (pre := pre ++ [2]) b s hl with ⟨l, len, rest, h1, h2, h3⟩ | ⟨h1, h2⟩
        · rw [h3, bind_ok, h2]
          rw [h2] at hl
          dsimp only
          rw [sizeSub_eq (by simp; omega) hl]
          by_cases hlen : len ≤ rest.length
          · rw [if_neg (by simp; omega)]
            refine Or.inl ⟨l, rest.take len, rest.drop len, ?_, ?_, ?_⟩
            · rw [List.length_take, Nat.min_eq_left hlen]; exact h1
            · rw [List.take_append_drop]
            · rw [List.length_take, Nat.min_eq_left hlen]
          · rw [if_pos (by simp; omega)]
            refine Or.inr ⟨rfl, fun l' c rest' h e => ?_⟩
            obtain ⟨-, rfl, rfl⟩ := h1.unique h (List.cons.inj e).2
            simp at hlen
        · rw [h1, bind_fail]
          refine Or.inr ⟨rfl, fun l c rest h e => ?_⟩
          exact h2 l _ (c ++ rest) h (List.cons.inj e).2
    · rw [if_pos ht]
      exact Or.inr ⟨rfl, fun l c rest _ e => ht (List.cons.inj e).1⟩

theorem laxHeader_spec {W : ℕ} (inp : Bytes) (hl : inp.length < 256 ^ W) :
    (∃ h rest, LaxHeader h ∧ inp = 0x30 :: (h ++ rest) ∧ laxHeader W inp = .ok (1 + h.length)) ∨
    (laxHeader W inp = .fail ∧ ∀ h rest, LaxHeader h → inp ≠ 0x30 :: (h ++ rest)) := by
  unfold laxHeader
  match inp with
  | [] => exact Or.inr ⟨by simp, by simp⟩
  | [t] =>
    have : ∀ h rest, LaxHeader h → [t] ≠ 0x30 :: (h ++ rest) := by
      intro h rest hh e
      rcases hh with ⟨_, _, rfl⟩ | ⟨_, _, rfl⟩ <;> simp at e
    by_cases ht : t = 0x30
    · exact Or.inr ⟨by rw [if_neg (by simp), rdAt_zero, bind_ok, if_neg (by simpa using ht),
        if_pos (by simp)], this⟩
    · exact Or.inr ⟨by rw [if_neg (by simp), rdAt_zero, bind_ok, if_pos ht], this⟩
  | t :: b :: s =>
    rw [if_neg (by simp), rdAt_zero, bind_ok]
    by_cases ht : t = 0x30
    · rw [if_neg (by simpa using ht), if_neg (by simp), rdAt_one, bind_ok]
      subst ht
      by_cases h80 : 128 ≤ b.toNat
      · rw [if_pos ((and80 b).2 h80), sizeSub_eq (by simp) hl]
        dsimp only
        have hb : b.toNat < 256 := b.toNat_lt
        by_cases hs : b.toNat - 0x80 ≤ s.length
        · rw [if_neg (by simp; omega)]
          have hc : (s.take (b.toNat - 0x80)).length = b.toNat - 0x80 := by simp [hs]
          refine Or.inl ⟨b :: s.take (b.toNat - 0x80), s.drop (b.toNat - 0x80),
            Or.inr ⟨s.take (b.toNat - 0x80), by omega, ?_⟩, ?_, ?_⟩
          · rw [hc, show 128 + (b.toNat - 0x80) = b.toNat by omega, ofNat_toNat']
          · rw [List.cons_append, List.take_append_drop]
          · rw [List.length_cons, hc, show 2 + (b.toNat - 0x80) = 1 + (b.toNat - 0x80 + 1) by omega]
        · rw [if_pos (by simp; omega)]
          refine Or.inr ⟨rfl, fun h rest hh e => ?_⟩
          rcases hh with ⟨b', h1, rfl⟩ | ⟨c, h1, rfl⟩
          · simp only [List.cons_append, List.cons.injEq] at e
            rw [e.2.1] at h80
            omega
          · simp only [List.cons_append, List.cons.injEq] at e
            have := congrArg UInt8.toNat e.2.1
            rw [toNat_ofNat' (by omega)] at this
            rw [e.2.2] at hs
            simp at hs
            omega
      · rw [if_neg (by rw [and80]; exact h80)]
        exact Or.inl ⟨[b], s, Or.inl ⟨b, by omega, rfl⟩, rfl, by simp⟩
    · rw [if_pos ht]
      exact Or.inr ⟨rfl, fun h rest _ e => ht (List.cons.inj e).1⟩

theorem laxCopy_spec (pre c t : Bytes) :
    laxCopy (pre ++ (c ++ t)) pre.length c.length =
      .ok (if beNat c < 256 ^ 32 then some (beBytes 32 (beNat c)) else none) := by
  unfold laxCopy
  obtain ⟨z, c', h1, h2, h3⟩ := laxZeros_spec c pre t
  rw [h3, bind_ok]
  dsimp only
  have hv : beNat c = beNat c' := by rw [h1, beNat_replicate]
  have hs := short_iff (W := 33) (by norm_num) h2
  rw [show 33 - 1 = 32 from rfl] at hs
  rw [hv]
  by_cases hlt : c'.length < 33
  · rw [if_neg (by omega), if_pos (hs.1 hlt), copyAt, if_pos (by rw [h1]; simp; omega), bind_ok]
    have e : pre ++ (c ++ t) = (pre ++ List.replicate z 0) ++ (c' ++ t) := by rw [h1]; simp
    rw [e, List.drop_left' (by simp), List.take_left' rfl]
    have : beBytes 32 (beNat (zeros (32 - c'.length) ++ c')) = zeros (32 - c'.length) ++ c' :=
      beBytes_beNat' (by simp [zeros]; omega)
    rw [← this, zeros, beNat_replicate]
  · rw [if_pos (by omega), if_neg (by rw [← hs]; exact hlt)]

theorem laxNumbers_spec {W : ℕ} (hW : 1 ≤ W) (inp : Bytes) (hl : inp.length < 256 ^ W) :
    (∃ R S, LaxSignature W inp R S ∧ laxNumbers W inp =
      .ok (if R < 256 ^ 32 ∧ S < 256 ^ 32 then some (beBytes 32 R ++ beBytes 32 S) else none)) ∨
    (laxNumbers W inp = .fail ∧ ¬ ∃ R S, LaxSignature W inp R S) := by
  unfold laxNumbers
  rcases laxHeader_spec inp hl with ⟨h, s, hh, hi, he⟩ | ⟨hf, hn⟩
  · rw [he, bind_ok]
    have e1 : inp = (0x30 :: h) ++ s := by rw [hi]; rfl
    have e2 : 1 + h.length = (0x30 :: h).length := by simp; omega
    rw [e2, e1]
    rw [e1] at hl
    rcases laxInteger_spec hW (0x30 :: h) s hl with ⟨l, c, s2, g1, g2, g3⟩ | ⟨g1, g2⟩
    · rw [g3, bind_ok]
      have e3 : (0x30 :: h) ++ s = ((0x30 :: h) ++ 2 :: (l ++ c)) ++ s2 := by rw [g2]; simp
      have e4 : (0x30 :: h).length + 1 + l.length + c.length = ((0x30 :: h) ++ 2 :: (l ++ c)).length := by
        simp; omega
      dsimp only
      rw [e4]
      rw [e3] at hl ⊢
      rcases laxInteger_spec hW _ s2 hl with ⟨l', c', s3, k1, k2, k3⟩ | ⟨k1, k2⟩
      · rw [k3, bind_ok]
        dsimp only
        have q1 : laxCopy ((0x30 :: h ++ 2 :: (l ++ c)) ++ s2) ((0x30 :: h).length + 1 + l.length) c.length =
            .ok (if beNat c < 256 ^ 32 then some (beBytes 32 (beNat c)) else none) := by
          have := laxCopy_spec (0x30 :: h ++ 2 :: l) c s2
          rw [← this]
          congr 1
          · simp
          · simp; omega
        have q2 : laxCopy ((0x30 :: h ++ 2 :: (l ++ c)) ++ s2)
            ((0x30 :: h ++ 2 :: (l ++ c)).length + 1 + l'.length) c'.length =
            .ok (if beNat c' < 256 ^ 32 then some (beBytes 32 (beNat c')) else none) := by
          have := laxCopy_spec (0x30 :: h ++ 2 :: (l ++ c) ++ 2 :: l') c' s3
          rw [← this]
          congr 1
          · rw [k2]; simp
          · simp; omega
        rw [q1, bind_ok, q2, bind_ok]
        refine Or.inl ⟨beNat c, beNat c', ⟨h, l, c, l', c', s3, hh, g1, k1, ?_, rfl, rfl⟩, ?_⟩
        · rw [k2]; simp
        · by_cases hr : beNat c < 256 ^ 32 <;> by_cases hs : beNat c' < 256 ^ 32
          · rw [if_pos hr, if_pos hs, if_pos ⟨hr, hs⟩]
          · rw [if_pos hr, if_neg hs, if_neg (fun h => hs h.2)]
          · rw [if_neg hr, if_pos hs, if_neg (fun h => hr h.1)]
          · rw [if_neg hr, if_neg hs, if_neg (fun h => hr h.1)]
      · rw [k1, bind_fail]
        refine Or.inr ⟨rfl, ?_⟩
        rintro ⟨R, S, hd, lr, cr, ls, cs, rest, h1, h2, h3, h4, -, -⟩
        rw [← e3, ← e1, hi] at h4
        obtain ⟨-, e⟩ := hh.unique h1 (List.cons.inj h4).2
        rw [g2] at e
        obtain ⟨-, len, e⟩ := g1.unique h2 (List.cons.inj e).2
        obtain ⟨-, e⟩ := List.append_inj e len
        exact k2 _ _ _ h3 e
    · rw [g1, bind_fail]
      refine Or.inr ⟨rfl, ?_⟩
      rintro ⟨R, S, hd, lr, cr, ls, cs, rest, h1, h2, h3, h4, -, -⟩
      rw [← e1, hi] at h4
      obtain ⟨-, e⟩ := hh.unique h1 (List.cons.inj h4).2
      exact g2 _ _ _ h2 e
  · rw [hf, bind_fail]
    refine Or.inr ⟨rfl, ?_⟩
    rintro ⟨R, S, hd, lr, cr, ls, cs, rest, h1, h2, h3, h4, -, -⟩
    exact hn _ _ h1 h4

end Secp
