import Verif.Spec.Keys
import Verif.Model.ApiKey
import Verif.Proof.Bytes
import Verif.Proof.Sqrt
import Verif.Proof.EcmultGen
import Verif.Proof.GroupEq
import Verif.Proof.Strauss

/-! # Key objects and points -/

namespace Secp
open WeierstrassCurve Model FeOps Spec

theorem seven_not_square : ¬ ∃ y : Fp, y ^ 2 = 7 := by
  have h : feIsSquareVar (((7 : ℕ) : Fp)) = false := by decide +kernel
  rintro ⟨y, hy⟩
  have : feIsSquareVar (((7 : ℕ) : Fp)) = true :=
    (feIsSquareVar_iff _).2 ⟨y, by rw [← sq, hy]; norm_num⟩
  rw [h] at this
  cases this

theorem x_ne_zero {x y : Fp} (h : E.Nonsingular x y) : x ≠ 0 := by
  rintro rfl
  exact seven_not_square ⟨y, by have := nonsingular_eq h; rw [this]; ring⟩

theorem pt_cases (P : Pt) : P = 0 ∨ ∃ x y, ∃ h : E.Nonsingular x y, P = .some x y h := by
  cases P with
  | zero => exact Or.inl rfl
  | some x y h => exact Or.inr ⟨x, y, h, rfl⟩

theorem ptX_some {x y : Fp} (h : E.Nonsingular x y) : ptX (.some x y h) = x.val := rfl
theorem ptY_some {x y : Fp} (h : E.Nonsingular x y) : ptY (.some x y h) = y.val := rfl
theorem ptX_zero : ptX 0 = 0 := rfl
theorem ptY_zero : ptY 0 = 0 := rfl

theorem ptX_lt (P : Pt) : ptX P < p := by
  cases P with
  | zero => exact p_pos
  | some x y h => exact ZMod.val_lt x

theorem ptY_lt (P : Pt) : ptY P < p := by
  cases P with
  | zero => exact p_pos
  | some x y h => exact ZMod.val_lt y

theorem ptX_eq_zero {P : Pt} : ptX P = 0 ↔ P = 0 := by
  rcases pt_cases P with rfl | ⟨x, y, h, rfl⟩
  · simp [ptX_zero]
  · rw [ptX_some, ZMod.val_eq_zero]
    exact iff_of_false (x_ne_zero h) (by intro h; cases h)

theorem pt_ext {P Q : Pt} (hx : ptX P = ptX Q) (hy : ptY P = ptY Q) : P = Q := by
  rcases pt_cases P with rfl | ⟨x, y, h, rfl⟩
  · rw [ptX_zero] at hx; exact (ptX_eq_zero.1 hx.symm).symm
  · rcases pt_cases Q with rfl | ⟨x', y', h', rfl⟩
    · rw [ptX_zero] at hx; exact ptX_eq_zero.1 hx
    · exact some_eq_some (ZMod.val_injective p hx) (ZMod.val_injective p hy)

theorem keyObject_zero : keyObject 0 = zeros 64 := by
  rw [keyObject, ptX_zero, ptY_zero, leBytes_zero]; rfl

theorem keyObject_length (P : Pt) : (keyObject P).length = 64 := by
  rw [keyObject, List.length_append, leBytes_length, leBytes_length]

theorem take_keyObject (P : Pt) : (keyObject P).take 32 = leBytes 32 (ptX P) := by
  rw [keyObject, List.take_append_of_le_length (by rw [leBytes_length]),
    List.take_of_length_le (by rw [leBytes_length])]

theorem drop_keyObject (P : Pt) : (keyObject P).drop 32 = leBytes 32 (ptY P) := by
  rw [keyObject, List.drop_left' (leBytes_length _ _)]

theorem leNat_ptX (P : Pt) : leNat (leBytes 32 (ptX P)) = ptX P := by
  rw [leNat_leBytes, Nat.mod_eq_of_lt (lt_trans (ptX_lt P) p_lt_256)]

theorem leNat_ptY (P : Pt) : leNat (leBytes 32 (ptY P)) = ptY P := by
  rw [leNat_leBytes, Nat.mod_eq_of_lt (lt_trans (ptY_lt P) p_lt_256)]

theorem keyObject_injective : Function.Injective keyObject := by
  intro P Q h
  apply pt_ext
  · rw [← leNat_ptX P, ← take_keyObject, h, take_keyObject, leNat_ptX]
  · rw [← leNat_ptY P, ← drop_keyObject, h, drop_keyObject, leNat_ptY]

theorem geFromBytes_keyObject {P : Pt} (hP : P ≠ 0) : GeRep 7 (geFromBytes (keyObject P)) P := by
  rcases pt_cases P with rfl | ⟨x, y, h, rfl⟩
  · exact absurd rfl hP
  · refine GeRep.intro rfl ?_ ?_
    · simp only [geFromBytes, geFromStorage, FeOps.ofStorage]
      rw [take_keyObject, leNat_ptX, ptX_some, ZMod.natCast_zmod_val]
    · simp only [geFromBytes, geFromStorage, FeOps.ofStorage]
      rw [drop_keyObject, List.take_of_length_le (by rw [leBytes_length]), leNat_ptY, ptY_some,
        ZMod.natCast_zmod_val]

/-- Loading a public key object that holds a point. -/
theorem pubkeyLoad_obj {P : Pt} (hP : P ≠ 0) :
    (pubkeyLoad (keyObject P)).2 = true ∧ GeRep 7 (pubkeyLoad (keyObject P)).1 P ∧
      (pubkeyLoad (keyObject P)).1.infinity = false := by
  refine ⟨?_, geFromBytes_keyObject hP, rfl⟩
  simp only [pubkeyLoad]
  rw [take_keyObject, leNat_ptX, bne_iff_ne]
  exact fun h => hP (ptX_eq_zero.1 h)

theorem pubkeyLoad_zeros : (pubkeyLoad (zeros 64)).2 = false := by decide +kernel

theorem geRep_x {a : Ge Fp} {P : Pt} (h : GeRep 7 a P) (hP : P ≠ 0) : a.x.val = ptX P := by
  rcases pt_cases P with rfl | ⟨x, y, hn, rfl⟩
  · exact absurd rfl hP
  · have hi : a.infinity = false := by
      cases hi : a.infinity
      · rfl
      · exact absurd (h.inf_iff.1 hi) hP
    obtain ⟨h1, e⟩ := h.elim hi
    rw [e, ptX_some]

theorem geRep_y {a : Ge Fp} {P : Pt} (h : GeRep 7 a P) (hP : P ≠ 0) : a.y.val = ptY P := by
  rcases pt_cases P with rfl | ⟨x, y, hn, rfl⟩
  · exact absurd rfl hP
  · have hi : a.infinity = false := by
      cases hi : a.infinity
      · rfl
      · exact absurd (h.inf_iff.1 hi) hP
    obtain ⟨h1, e⟩ := h.elim hi
    rw [e, ptY_some]

theorem geRep_inf {a : Ge Fp} {P : Pt} (h : GeRep 7 a P) (hP : P ≠ 0) : a.infinity = false := by
  cases hi : a.infinity
  · rfl
  · exact absurd (h.inf_iff.1 hi) hP

theorem geToBytes_rep {a : Ge Fp} {P : Pt} (h : GeRep 7 a P) (hP : P ≠ 0) :
    geToBytes a = keyObject P := by
  simp only [geToBytes, FeOps.normalize]
  rw [geRep_x h hP, geRep_y h hP]
  rfl

/-- Saving a point that is not infinity. -/
theorem pubkeySave_rep {a : Ge Fp} {P : Pt} (h : GeRep 7 a P) (hP : P ≠ 0) :
    pubkeySave a = keyObject P := geToBytes_rep h hP

theorem ptX_neg (P : Pt) : ptX (-P) = ptX P := by
  rcases pt_cases P with rfl | ⟨x, y, h, rfl⟩
  · simp
  · obtain ⟨h', e⟩ := neg_some (h := h)
    rw [e, ptX_some, ptX_some]

theorem ptY_neg {P : Pt} (hP : P ≠ 0) : ptY (-P) % 2 = 1 - ptY P % 2 := by
  rcases pt_cases P with rfl | ⟨x, y, h, rfl⟩
  · exact absurd rfl hP
  · obtain ⟨h', e⟩ := neg_some (h := h)
    rw [e, ptY_some, ptY_some]
    exact neg_val_odd (y_ne_zero h)

/-- A point is determined by its x coordinate and the parity of y. -/
theorem pt_ext_parity {P Q : Pt} (hx : ptX P = ptX Q) (hy : ptY P % 2 = ptY Q % 2) : P = Q := by
  rcases pt_cases P with rfl | ⟨x, y, h, rfl⟩
  · rw [ptX_zero] at hx; exact (ptX_eq_zero.1 hx.symm).symm
  · rcases pt_cases Q with rfl | ⟨x', y', h', rfl⟩
    · rw [ptX_zero] at hx; exact ptX_eq_zero.1 hx
    · have e : x = x' := ZMod.val_injective p hx
      subst e
      exact some_eq_some rfl (y_eq_of_parity (nonsingular_eq h) (nonsingular_eq h') hy)

/-- Two points with the same x coordinate are equal or opposite. -/
theorem eq_or_neg_of_ptX {P Q : Pt} (hx : ptX P = ptX Q) : P = Q ∨ P = -Q := by
  by_cases hQ : Q = 0
  · subst hQ; rw [ptX_zero] at hx; exact Or.inl (ptX_eq_zero.1 hx)
  · by_cases h : ptY P % 2 = ptY Q % 2
    · exact Or.inl (pt_ext_parity hx h)
    · refine Or.inr (pt_ext_parity (by rw [ptX_neg, hx]) ?_)
      rw [ptY_neg hQ]
      omega

theorem evenY_ne_zero {P : Pt} (hP : P ≠ 0) : evenY P ≠ 0 := by
  unfold evenY; split
  · exact neg_ne_zero.2 hP
  · exact hP

theorem ptX_evenY (P : Pt) : ptX (evenY P) = ptX P := by
  unfold evenY; split
  · exact ptX_neg P
  · rfl

theorem ptY_evenY (P : Pt) : ptY (evenY P) % 2 = 0 := by
  unfold evenY; split
  · rename_i h
    have hP : P ≠ 0 := by rintro rfl; simp [ptY_zero] at h
    rw [ptY_neg hP]; omega
  · omega

/-! ## Secret keys -/

theorem scSetB32_val (b : Bytes) : (scSetB32 b).1.val = beNat (b.take 32) % n := by
  simp only [scSetB32]; rw [ZMod.val_natCast]

theorem scSetB32_ok {b : Bytes} (h : beNat (b.take 32) < n) :
    (scSetB32 b).2 = false ∧ (scSetB32 b).1.val = beNat (b.take 32) := by
  refine ⟨?_, by rw [scSetB32_val, Nat.mod_eq_of_lt h]⟩
  simp only [scSetB32, decide_eq_false_iff_not]; omega

theorem scSetB32_overflow {b : Bytes} : (scSetB32 b).2 = true ↔ n ≤ beNat (b.take 32) := by
  simp [scSetB32]

theorem scIsZero_iff (a : Fn) : scIsZero a = true ↔ a = 0 := by
  simp [scIsZero, ZMod.val_eq_zero]

theorem scSetB32Seckey_iff (b : Bytes) :
    (scSetB32Seckey b).2 = true ↔ 0 < beNat (b.take 32) ∧ beNat (b.take 32) < n := by
  simp only [scSetB32Seckey, Bool.and_eq_true, Bool.not_eq_true']
  constructor
  · rintro ⟨h1, h2⟩
    have hlt : beNat (b.take 32) < n := by
      by_contra h
      rw [scSetB32_overflow.2 (not_lt.1 h)] at h1
      cases h1
    refine ⟨Nat.pos_of_ne_zero fun h0 => ?_, hlt⟩
    have hv := (scSetB32_ok hlt).2
    have : scIsZero (scSetB32 b).1 = true := by
      rw [scIsZero_iff, ← ZMod.val_eq_zero, hv, h0]
    rw [this] at h2; cases h2
  · rintro ⟨h1, h2⟩
    obtain ⟨h3, h4⟩ := scSetB32_ok h2
    refine ⟨h3, ?_⟩
    rw [Bool.eq_false_iff, Ne, scIsZero_iff, ← ZMod.val_eq_zero, h4]
    omega

theorem scSetB32Seckey_val {b : Bytes} (h : (scSetB32Seckey b).2 = true) :
    (scSetB32Seckey b).1 = ((beNat (b.take 32) : ℕ) : Fn) ∧ (scSetB32Seckey b).1 ≠ 0 := by
  refine ⟨rfl, fun h0 => ?_⟩
  have h1 := (scSetB32Seckey_iff b).1 h
  have h2 := (scSetB32_ok h1.2).2
  have : (scSetB32 b).1 = 0 := h0
  rw [this, ZMod.val_zero] at h2
  omega

theorem scGetB32_length (a : Fn) : (scGetB32 a).length = 32 := Hash.beBytes_length _ _

theorem beNat_scGetB32 (a : Fn) : beNat (scGetB32 a) = a.val := by
  rw [scGetB32, beNat_beBytes, Nat.mod_eq_of_lt (fn_lt a)]

theorem smul_G_ne {d : Fn} (h : d ≠ 0) : d • G ≠ 0 := fun e =>
  (smul_eq_zero_iff.1 e).elim h G_ne_zero

theorem createHelper_rep {gen : GenCtx} (hg : GenCtxOk gen) (seckey : Bytes) :
    let h := ecPubkeyCreateHelper gen seckey
    GeRep 7 h.2.1 (h.1 • G) ∧ h.1 ≠ 0 ∧ h.2.2 = (scSetB32Seckey seckey).2 ∧
      (h.2.2 = true → h.1 = ((beNat (seckey.take 32) : ℕ) : Fn)) := by
  simp only [ecPubkeyCreateHelper]
  refine ⟨geSetGej_rep (ecmultGen_rep hg _), ?_, trivial, ?_⟩
  · cases hs : (scSetB32Seckey seckey).2
    · simp [scCmov]
    · simpa [scCmov] using (scSetB32Seckey_val hs).2
  · intro hs
    rw [hs]
    simp [scCmov, (scSetB32Seckey_val hs).1]

theorem put_zero_full {buf b : Bytes} (h : buf.length = b.length) : put buf 0 b = b := by
  simp [put, h]

theorem put_zero_same_length {buf b : Bytes} (h : b.length ≤ buf.length) :
    (put buf 0 b).length = buf.length := by
  simp [put]; omega

end Secp
