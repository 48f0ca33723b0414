import Verif.Model.GroupAll
import Verif.Proof.GroupLimb

/-!
# Batch conversion to affine coordinates on limbs
-/

namespace Secp.Model
open FeOps LimbRep List

variable {α : Type} [FeOps α] [LimbRep α]

/-! ### Lists of pairs -/

theorem Forall₂.zipR {A B C D : Type} {R : A → B → Prop} {S : C → D → Prop} {a : List A} {b : List B} {c : List C}
    {d : List D} (h : Forall₂ R a b) (g : Forall₂ S c d) :
    Forall₂ (fun (p : A × C) (q : B × D) => R p.1 q.1 ∧ S p.2 q.2) (a.zip c) (b.zip d) := by
  induction h generalizing c d with
  | nil => exact .nil
  | cons h _ ih =>
    cases g with
    | nil => exact .nil
    | cons g gs => exact .cons ⟨h, g⟩ (ih gs)

theorem Forall₂.zipWithR {A B C D E F : Type} {R : A → B → Prop} {S : C → D → Prop} {T : E → F → Prop}
    {f : A → C → E} {g : B → D → F} {a : List A} {b : List B} {c : List C} {d : List D}
    (hf : ∀ x y u v, R x y → S u v → T (f x u) (g y v)) (h : Forall₂ R a b) (k : Forall₂ S c d) :
    Forall₂ T (List.zipWith f a c) (List.zipWith g b d) := by
  induction h generalizing c d with
  | nil => exact .nil
  | cons h _ ih =>
    cases k with
    | nil => exact .nil
    | cons k ks => exact .cons (hf _ _ _ _ h k) (ih ks)

theorem Forall₂.getLastD {A B : Type} {R : A → B → Prop} {a : List A} {b : List B} (h : Forall₂ R a b) {x : A} {y : B}
    (hd : R x y) : R (a.getLastD x) (b.getLastD y) := by
  induction h generalizing x y with
  | nil => exact hd
  | cons h t ih =>
    rw [getLastD_cons, getLastD_cons]
    exact ih h

/-- Limbs of magnitude 1 of a value. -/
abbrev Rep1 (u : α) (U : Fp) : Prop := Rep u 1 U

/-! ### `secp256k1_ge_set_all_gej` -/

theorem allGejForward_limb {a : List (Gej α)} {A : List (Gej Fp)} (h : Forall₂ GejLimb a A) {u : α} {U : Fp}
    (hu : Rep u 1 U) : Forall₂ Rep1 (allGejForward u a) (allGejForward U A) := by
  induction h generalizing u U with
  | nil => exact .nil
  | cons h _ ih =>
    have m : Rep1 (mul u _) (mul U _) := hu.mul' h.z
    exact .cons m (ih m)

theorem allGejBackward_limb {q : List (α × Gej α)} {Q : List (Fp × Gej Fp)}
    (h : Forall₂ (fun p P => Rep1 p.1 P.1 ∧ GejLimb p.2 P.2) q Q) {u : α} {U : Fp} (hu : Rep1 u U)
    {acc : List α} {ACC : List Fp} (ha : Forall₂ Rep1 acc ACC) :
    Forall₂ Rep1 (allGejBackward q u acc) (allGejBackward Q U ACC) := by
  induction h generalizing u U acc ACC with
  | nil => exact ha
  | cons h t ih =>
    cases t with
    | nil => exact .cons hu ha
    | cons h' t' =>
      rw [allGejBackward, allGejBackward]
      exact ih (Rep.mul' hu h.2.z) (.cons (Rep.mul' h'.1 hu) ha)

theorem geSetAllGej_limb (hi : LimbInvOk α) {a : List (Gej α)} {A : List (Gej Fp)} (h : Forall₂ GejLimb a A) :
    Forall₂ GeLimb (geSetAllGej a) (geSetAllGej A) := by
  cases h with
  | nil => exact .nil
  | cons h t =>
    rw [geSetAllGej, geSetAllGej]
    have hf : Forall₂ Rep1 _ _ := .cons (show Rep1 _ _ from h.z) (allGejForward_limb t h.z)
    have hu := hi.ok (Rep.mono (Forall₂.getLastD hf (Rep.int 0)) (by omega))
    have hb := allGejBackward_limb (rel_reverse (Forall₂.zipR hf (.cons h t))) hu .nil
    exact Forall₂.zipWithR (fun _ _ _ _ l z => GejLimb.zinv l z) (.cons h t) hb

/-! ### `secp256k1_ge_set_all_gej_var` -/

theorem allVarForward_limb {a : List (Gej α)} {A : List (Gej Fp)} (h : Forall₂ GejLimb a A) {l : Option α}
    {L : Option Fp} (hl : Option.Rel Rep1 l L) :
    Forall₂ Rep1 (allVarForward l a).1 (allVarForward L A).1 ∧
      Option.Rel Rep1 (allVarForward l a).2 (allVarForward L A).2 := by
  induction h generalizing l L with
  | nil => exact ⟨.nil, hl⟩
  | cons h _ ih =>
    rw [allVarForward.eq_def, allVarForward.eq_def L]
    dsimp only
    rw [h.inf]
    split_ifs
    · obtain ⟨i1, i2⟩ := ih hl
      exact ⟨.cons (Rep.int 0) i1, i2⟩
    · cases hl with
      | none =>
        obtain ⟨i1, i2⟩ := ih (.some (show Rep1 _ _ from h.z))
        exact ⟨.cons h.z i1, i2⟩
      | some hl =>
        have m : Rep1 (mul _ _) (mul _ _) := Rep.mul' hl h.z
        obtain ⟨i1, i2⟩ := ih (.some m)
        exact ⟨.cons m i1, i2⟩

theorem allVarBackward_limb {q : List (Gej α × α)} {Q : List (Gej Fp × Fp)}
    (h : Forall₂ (fun p P => GejLimb p.1 P.1 ∧ Rep1 p.2 P.2) q Q) {z u : α} {Z U : Fp} (hz : Rep1 z Z)
    (hu : Rep1 u U) :
    Rep1 (allVarBackward z u q).1 (allVarBackward Z U Q).1 ∧
      Forall₂ Rep1 (allVarBackward z u q).2 (allVarBackward Z U Q).2 := by
  induction h generalizing z u Z U with
  | nil => exact ⟨hu, .nil⟩
  | cons h _ ih =>
    rw [allVarBackward, allVarBackward, h.1.inf]
    split_ifs
    · obtain ⟨i1, i2⟩ := ih hz hu
      exact ⟨i1, .cons (Rep.int 0) i2⟩
    · obtain ⟨i1, i2⟩ := ih h.1.z (Rep.mul' hu hz)
      exact ⟨Rep.mul' h.2 hu, .cons i1 i2⟩

theorem allVarInverses_limb {q : List (Gej α × α)} {Q : List (Gej Fp × Fp)}
    (h : Forall₂ (fun p P => GejLimb p.1 P.1 ∧ Rep1 p.2 P.2) q Q) {u : α} {U : Fp} (hu : Rep1 u U) :
    Forall₂ Rep1 (allVarInverses u q) (allVarInverses U Q) := by
  induction h with
  | nil => exact .nil
  | cons h t ih =>
    rw [allVarInverses, allVarInverses, h.1.inf]
    split_ifs
    · exact .cons (Rep.int 0) ih
    · obtain ⟨i1, i2⟩ := allVarBackward_limb t h.1.z hu
      exact .cons i1 i2

theorem geSetAllGejVar_limb (hi : LimbInvOk α) {a : List (Gej α)} {A : List (Gej Fp)} (h : Forall₂ GejLimb a A) :
    Forall₂ GeLimb (geSetAllGejVar a) (geSetAllGejVar A) := by
  obtain ⟨h1, h2⟩ := allVarForward_limb h .none
  unfold geSetAllGejVar
  dsimp only
  revert h1 h2
  generalize allVarForward none a = f
  generalize allVarForward none A = F
  intro h1 h2
  obtain ⟨f1, f2⟩ := f
  obtain ⟨F1, F2⟩ := F
  dsimp only at h1 h2 ⊢
  cases h2 with
  | none =>
    clear h1
    induction h with
    | nil => exact .nil
    | cons _ _ ih => exact .cons GeLimb.infinity ih
  | some hl =>
    have hz := rel_reverse (allVarInverses_limb (rel_reverse (Forall₂.zipR h h1))
      (hi.okVar (Rep.mono hl (by omega))))
    refine Forall₂.zipWithR (fun x y u v l z => ?_) h hz
    rw [l.inf]
    split_ifs
    · exact GeLimb.infinity
    · exact l.zinv z

end Secp.Model
