import Mathlib.Data.List.Forall2
import Verif.Proof.GroupLimb
import Verif.Model.EcmultConst
import Verif.Model.EcmultGen

/-!
# The multiplication code on limbs refines the multiplication code on field values
-/

namespace Secp.Model

open FeOps LimbRep List
variable {α : Type} [FeOps α] [LimbRep α]

variable {m : ℕ} {a b : Gej α} {A B : Gej Fp} {c d : Ge α} {C D : Ge Fp}

theorem forall₂_getD {β γ : Type} {R : β → γ → Prop} {d : β} {D : γ} (hd : R d D) :
    ∀ {l : List β} {L : List γ}, Forall₂ R l L → ∀ i, R (l.getD i d) (L.getD i D)
  | _, _, .nil, i => by simpa using hd
  | _, _, .cons h _, 0 => by simpa using h
  | _, _, .cons _ h, i + 1 => by simpa using forall₂_getD hd h i

theorem forall₂_map {β γ β' γ' : Type} {R : β → γ → Prop} {S : β' → γ' → Prop} {f : β → β'} {F : γ → γ'}
    (hf : ∀ x X, R x X → S (f x) (F X)) {l : List β} {L : List γ} (h : Forall₂ R l L) :
    Forall₂ S (l.map f) (L.map F) := by
  induction h with
  | nil => exact .nil
  | cons h _ ih => exact .cons (hf _ _ h) ih

theorem forall₂_foldl {β γ σ τ : Type} {R : β → γ → Prop} {S : σ → τ → Prop} {f : σ → β → σ} {F : τ → γ → τ}
    (hf : ∀ s t x X, S s t → R x X → S (f s x) (F t X)) {l : List β} {L : List γ} (h : Forall₂ R l L) :
    ∀ {s : σ} {t : τ}, S s t → S (l.foldl f s) (L.foldl F t) := by
  induction h with
  | nil => exact fun hs => hs
  | cons h _ ih => exact fun hs => ih (hf _ _ _ _ hs h)

/-- An entry of a table of multiples: as an affine point, but `y` has magnitude 1, which is what the
negation on reading needs. -/
structure GeTab (a : Ge α) (A : Ge Fp) : Prop where
  x : Rep a.x 4 A.x
  y : Rep a.y 1 A.y
  inf : a.infinity = A.infinity

theorem GeTab.ge (h : GeTab c C) : GeLimb c C := ⟨h.x, h.y.mono (by omega), h.inf⟩

theorem GeTab.garbage : GeTab (geGarbage : Ge α) geGarbage :=
  ⟨(Rep.int 0).mono (by omega), Rep.int 0, rfl⟩

/-- An entry together with the ratio of the z coordinates to its predecessor. -/
structure EntLimb (e : Ge α × α) (E : Ge Fp × Fp) : Prop where
  x : Rep e.1.x 4 E.1.x
  y : Rep e.1.y 4 E.1.y
  inf : e.1.infinity = E.1.infinity
  z : Rep e.2 6 E.2

theorem GejLimb.double_y (h : GejLimb a A) : Rep (gejDouble a).y 3 (gejDouble A).y := by
  have s := h.y.sqr'
  have l := ((h.x.sqr').mulInt' 3).half'
  have t := (s.negate' 1).mul' h.x
  have rx := (l.sqr'.add' t).add' t
  have s := s.sqr'
  have t := t.add' rx
  have ry := ((t.mul' l).add' s).negate' 2
  unfold gejDouble
  exact ry.mono (by omega)

theorem GejLimb.doubleVar_y (h : GejLimb a A) : Rep (gejDoubleVar a).1.y 3 (gejDoubleVar A).1.y := by
  unfold gejDoubleVar
  rw [h.inf]
  cases A.infinity
  · exact h.double_y
  · exact (Rep.int 0).mono (by omega)

theorem RzrLimb.getD {r : Option α} {R : Option Fp} (h : RzrLimb r R) :
    Rep (r.getD (setInt 0)) 6 (R.getD (setInt 0)) := by
  cases r <;> cases R
  · exact (Rep.int 0).mono (by omega)
  · exact h.elim
  · exact h.elim
  · exact h

theorem oddMultiplesLoop_limb (hd : GeLimb d D) : ∀ (k : ℕ) {a : Gej α} {A : Gej Fp}, GejLimb a A →
    Forall₂ EntLimb (oddMultiplesLoop d k a).1 (oddMultiplesLoop D k A).1 ∧
      GejLimb (oddMultiplesLoop d k a).2 (oddMultiplesLoop D k A).2
  | 0, _, _, h => ⟨.nil, h⟩
  | k + 1, a, A, h => by
    obtain ⟨s, r⟩ := h.addGeVar hd
    obtain ⟨h1, h2⟩ := oddMultiplesLoop_limb hd k s
    exact ⟨.cons ⟨s.x, s.y, rfl, r.getD⟩ h1, h2⟩

theorem oddMultiplesTable_limb (h : GejLimb a A) (cnt : ℕ) :
    Forall₂ EntLimb (oddMultiplesTable cnt a).1 (oddMultiplesTable cnt A).1 ∧
      Rep (oddMultiplesTable cnt a).2 1 (oddMultiplesTable cnt A).2 := by
  have hd := h.doubleVar.1
  have hg : GeLimb (geSetXY (gejDoubleVar a).1.x (gejDoubleVar a).1.y)
      (geSetXY (gejDoubleVar A).1.x (gejDoubleVar A).1.y) := ⟨hd.x, h.doubleVar_y, rfl⟩
  have h0 := h.zinv hd.z
  obtain ⟨l, z⟩ := oddMultiplesLoop_limb hg (cnt - 1)
    (a := { gejSetGe (geSetGejZinv a (gejDoubleVar a).1.z) with z := a.z })
    (A := { gejSetGe (geSetGejZinv A (gejDoubleVar A).1.z) with z := A.z })
    ⟨h0.x, h0.y.mono (by omega), h.z, h0.inf⟩
  exact ⟨.cons ⟨h0.x, h0.y.mono (by omega), h0.inf, hd.z.mono (by omega)⟩ l, z.z.mul' hd.z⟩

theorem EntLimb.zinv {e : Ge α × α} {E : Ge Fp × Fp} {zs : α} {Z : Fp} (h : EntLimb e E)
    (hz : Rep zs 8 Z) : GeTab (geSetGeZinv e.1 zs) (geSetGeZinv E.1 Z) := by
  have z2 := hz.sqr'
  have z3 := z2.mul' hz
  exact ⟨(h.x.mul' z2).mono (by omega), h.y.mul' z3, h.inf⟩

theorem globalzLoop_limb {t : List (Ge α × α)} {T : List (Ge Fp × Fp)} (h : Forall₂ EntLimb t T) :
    ∀ {zs : α} {Z : Fp} {acc : List (Ge α)} {ACC : List (Ge Fp)}, Rep zs 8 Z → Forall₂ GeTab acc ACC →
    Forall₂ GeTab (globalzLoop t zs acc) (globalzLoop T Z ACC) := by
  induction h with
  | nil => exact fun _ ha => ha
  | cons h _ ih => exact fun hz ha => ih ((hz.mul' h.z).mono (by omega)) (.cons (h.zinv hz) ha)

theorem tableSetGlobalz_limb {t : List (Ge α × α)} {T : List (Ge Fp × Fp)} (h : Forall₂ EntLimb t T) :
    Forall₂ GeTab (tableSetGlobalz t) (tableSetGlobalz T) := by
  have hr := List.forall₂_reverse_iff.2 h
  unfold tableSetGlobalz
  generalize t.reverse = r at hr
  generalize T.reverse = R at hr
  cases hr with
  | nil => exact .nil
  | cons h t =>
    rename_i a b _ _
    obtain ⟨_, _⟩ := a
    obtain ⟨_, _⟩ := b
    exact globalzLoop_limb t (h.z.mono (by omega)) (.cons ⟨h.x, h.y.weak, h.inf⟩ .nil)

theorem GeTab.negY (h : GeTab c C) :
    GeLimb { c with y := negate c.y 1 } { C with y := negate C.y 1 } :=
  ⟨h.x, (h.y.negate' 1).mono (by omega), h.inf⟩

theorem tableGetGe_limb {pre : List (Ge α)} {PRE : List (Ge Fp)} (h : Forall₂ GeTab pre PRE) (k : ℤ) :
    GeLimb (tableGetGe pre k) (tableGetGe PRE k) := by
  unfold tableGetGe
  split_ifs
  · exact (forall₂_getD GeTab.garbage h _).ge
  · exact (forall₂_getD GeTab.garbage h _).negY

theorem tableGetGeLambda_limb {pre : List (Ge α)} {PRE : List (Ge Fp)} {x : List α} {X : List Fp}
    (h : Forall₂ GeTab pre PRE) (hx : Forall₂ (fun a v => Rep a 1 v) x X) (k : ℤ) :
    GeLimb (tableGetGeLambda pre x k) (tableGetGeLambda PRE X k) := by
  have key : ∀ i, GeTab (geSetXY (x.getD i (setInt 0)) (pre.getD i geGarbage).y)
      (geSetXY (X.getD i (setInt 0)) (PRE.getD i geGarbage).y) := fun i =>
    ⟨(forall₂_getD (R := fun a v => Rep a 1 v) (Rep.int 0) hx i).mono (by omega),
      (forall₂_getD GeTab.garbage h i).y, rfl⟩
  unfold tableGetGeLambda
  split_ifs
  · exact (key _).ge
  · exact (key _).negY

/-- Both coordinates of a stored point are 256-bit numbers. -/
def Stored (s : ℕ × ℕ) : Prop := s.1 < 2 ^ 256 ∧ s.2 < 2 ^ 256

theorem geFromStorage_limb {s : ℕ × ℕ} (h : Stored s) : GeTab (geFromStorage s : Ge α) (geFromStorage s) :=
  ⟨(LimbRep.ofStorage h.1).mono (by omega), LimbRep.ofStorage h.2, rfl⟩

theorem tableGetGeStorage_limb {pre : ℕ → ℕ × ℕ} (h : ∀ i, Stored (pre i)) (k : ℤ) :
    GeLimb (tableGetGeStorage pre k : Ge α) (tableGetGeStorage pre k) := by
  unfold tableGetGeStorage
  split_ifs
  · exact (geFromStorage_limb (h _)).ge
  · exact (geFromStorage_limb (h _)).negY

/-- The local variables of `secp256k1_ecmult_strauss_wnaf` during the first loop. -/
structure StraussLimb (s : StraussState α) (S : StraussState Fp) : Prop where
  Z : Rep s.Z 1 S.Z
  table : Forall₂ EntLimb s.table S.table
  ps : s.ps = S.ps
  bits : s.bits = S.bits

theorem straussPrep_limb {s : StraussState α} {S : StraussState Fp} {q : Gej α × Fn} {Q : Gej Fp × Fn}
    (h : StraussLimb s S) (hq : GejLimb q.1 Q.1 ∧ q.2 = Q.2) :
    StraussLimb (straussPrep s q) (straussPrep S Q) := by
  obtain ⟨a, na⟩ := q
  obtain ⟨A, NA⟩ := Q
  obtain ⟨ha, hn⟩ := hq
  dsimp only at ha hn
  subst hn
  unfold straussPrep
  dsimp only
  rw [ha.inf, h.ps, h.bits]
  by_cases c1 : (scIsZero na || A.infinity) = true
  · rw [if_pos c1, if_pos c1]; exact h
  rw [if_neg c1, if_neg c1]
  have ht : GejLimb (if S.ps.length ≠ 0 then gejRescale a s.Z else a)
      (if S.ps.length ≠ 0 then gejRescale A S.Z else A) := by
    by_cases c2 : S.ps.length ≠ 0
    · rw [if_pos c2, if_pos c2]; exact ha.rescale h.Z
    · rw [if_neg c2, if_neg c2]; exact ha
  obtain ⟨t, z⟩ := oddMultiplesTable_limb ht (ecmultTableSize windowA)
  refine ⟨z, ?_, rfl, rfl⟩
  refine List.rel_append h.table ?_
  generalize (oddMultiplesTable (ecmultTableSize windowA)
    (if S.ps.length ≠ 0 then gejRescale a s.Z else a)).1 = l at t
  generalize (oddMultiplesTable (ecmultTableSize windowA)
    (if S.ps.length ≠ 0 then gejRescale A S.Z else A)).1 = L at t
  cases t with
  | nil => exact .nil
  | cons h0 tl =>
    rename_i e E _ _
    obtain ⟨_, _⟩ := e
    obtain ⟨_, _⟩ := E
    refine .cons ⟨h0.x, h0.y, h0.inf, ?_⟩ tl
    by_cases c2 : S.ps.length ≠ 0
    · rw [if_pos c2, if_pos c2]; exact (h0.z.mul' ha.z).mono (by omega)
    · rw [if_neg c2, if_neg c2]; exact h0.z

variable {pre : List (Ge α)} {PRE : List (Ge Fp)} {aux : List α} {AUX : List Fp}

theorem straussAddPoint_limb (hp : Forall₂ GeTab pre PRE) (hx : Forall₂ (fun a v => Rep a 1 v) aux AUX)
    (i : ℕ) (np : ℕ) (ps : StraussPoint) (h : GejLimb a A) :
    GejLimb (straussAddPoint pre aux i a np ps) (straussAddPoint PRE AUX i A np ps) := by
  have hp' := List.forall₂_drop (np * ecmultTableSize windowA) hp
  have hx' := List.forall₂_drop (np * ecmultTableSize windowA) hx
  unfold straussAddPoint
  dsimp only
  have h1 : GejLimb (if i < ps.bitsNa1 ∧ ps.wnafNa1.getD i 0 ≠ 0 then
        (gejAddGeVar a (tableGetGe (pre.drop (np * ecmultTableSize windowA)) (ps.wnafNa1.getD i 0))).1 else a)
      (if i < ps.bitsNa1 ∧ ps.wnafNa1.getD i 0 ≠ 0 then
        (gejAddGeVar A (tableGetGe (PRE.drop (np * ecmultTableSize windowA)) (ps.wnafNa1.getD i 0))).1 else A) := by
    split_ifs
    · exact (h.addGeVar (tableGetGe_limb hp' _)).1
    · exact h
  by_cases c : i < ps.bitsNaLam ∧ ps.wnafNaLam.getD i 0 ≠ 0
  · rw [if_pos c, if_pos c]
    exact (h1.addGeVar (tableGetGeLambda_limb hp' hx' _)).1
  · rw [if_neg c, if_neg c]
    exact h1

theorem straussAddPoints_limb (hp : Forall₂ GeTab pre PRE) (hx : Forall₂ (fun a v => Rep a 1 v) aux AUX)
    (i : ℕ) : ∀ (ps : List StraussPoint) (np : ℕ) {a : Gej α} {A : Gej Fp}, GejLimb a A →
    GejLimb (straussAddPoints pre aux i np ps a) (straussAddPoints PRE AUX i np ps A)
  | [], _, _, _, h => h
  | p :: rest, np, _, _, h =>
    straussAddPoints_limb hp hx i rest (np + 1) (straussAddPoint_limb hp hx i np p h)

theorem straussAddG_limb {tab : ℕ → ℕ × ℕ} (ht : ∀ i, Stored (tab i)) {z : α} {Z : Fp} (hz : Rep z 1 Z)
    (w : List ℤ × ℕ) (i : ℕ) (h : GejLimb a A) :
    GejLimb (straussAddG tab z w i a) (straussAddG tab Z w i A) := by
  unfold straussAddG
  dsimp only
  split_ifs
  · exact h.addZinvVar (tableGetGeStorage_limb ht _) hz
  · exact h

theorem straussLoop_limb {t : GTab} (hg : ∀ i, Stored (t.g i)) (hg' : ∀ i, Stored (t.g128 i))
    (hp : Forall₂ GeTab pre PRE) (hx : Forall₂ (fun a v => Rep a 1 v) aux AUX)
    (ps : List StraussPoint) {z : α} {Z : Fp} (hz : Rep z 1 Z) (w w' : List ℤ × ℕ) :
    ∀ (i : ℕ) {a : Gej α} {A : Gej Fp}, GejLimb a A →
    GejLimb (straussLoop t pre aux ps z w w' i a) (straussLoop t PRE AUX ps Z w w' i A)
  | 0, _, _, h => h
  | i + 1, _, _, h =>
    straussLoop_limb hg hg' hp hx ps hz w w' i
      (straussAddG_limb hg' hz w' i (straussAddG_limb hg hz w i
        (straussAddPoints_limb hp hx i ps 0 h.doubleVar.1)))

theorem beta_limb : Rep (feConst constBeta : α) 1 (feConst constBeta : Fp) :=
  LimbRep.feConst (by decide)

theorem straussWith_limb {t : GTab} (hg : ∀ i, Stored (t.g i)) (hg' : ∀ i, Stored (t.g128 i))
    {pts : List (Gej α × Fn)} {PTS : List (Gej Fp × Fn)}
    (h : Forall₂ (fun q Q => GejLimb q.1 Q.1 ∧ q.2 = Q.2) pts PTS) (ng : Option Fn) :
    GejLimb (straussWith t pts ng) (straussWith t PTS ng) := by
  have h0 : StraussLimb (α := α) ⟨setInt 1, [], [], 0⟩ ⟨setInt 1, [], [], 0⟩ :=
    ⟨Rep.int 1, .nil, rfl, rfl⟩
  have hs := forall₂_foldl (S := StraussLimb) (f := straussPrep) (F := straussPrep) (fun _ _ _ _ h g => straussPrep_limb h g) h h0
  unfold straussWith
  generalize pts.foldl straussPrep ⟨setInt 1, [], [], 0⟩ = st at hs
  generalize PTS.foldl straussPrep ⟨setInt 1, [], [], 0⟩ = ST at hs
  have hp := tableSetGlobalz_limb hs.table
  have hx := forall₂_map (S := fun a v => Rep a 1 v) (f := fun g : Ge α => mul g.x (feConst constBeta))
    (F := fun g : Ge Fp => mul g.x (feConst constBeta)) (fun _ _ h => h.x.mul' beta_limb) hp
  dsimp only
  rw [hs.ps, hs.bits]
  have hl := straussLoop_limb hg hg' hp hx ST.ps hs.Z (straussWnafG t.window ng).1 (straussWnafG t.window ng).2
    (if (straussWnafG t.window ng).2.2 > (if (straussWnafG t.window ng).1.2 > ST.bits then (straussWnafG t.window ng).1.2 else ST.bits) then
      (straussWnafG t.window ng).2.2 else (if (straussWnafG t.window ng).1.2 > ST.bits then (straussWnafG t.window ng).1.2 else ST.bits))
    GejLimb.infinity
  generalize straussLoop (α := α) _ _ _ _ _ _ _ _ _ = r at hl ⊢
  generalize straussLoop (α := Fp) _ _ _ _ _ _ _ _ _ = R at hl ⊢
  rw [hl.inf]
  by_cases c : (!R.infinity) = true
  · rw [if_pos c, if_pos c]; exact ⟨hl.x, hl.y, hl.z.mul' hs.Z, rfl⟩
  · rw [if_neg c, if_neg c]; exact hl

theorem strauss_limb (hg : ∀ i, Stored (preG i)) (hg' : ∀ i, Stored (preG128 i))
    {pts : List (Gej α × Fn)} {PTS : List (Gej Fp × Fn)}
    (h : Forall₂ (fun q Q => GejLimb q.1 Q.1 ∧ q.2 = Q.2) pts PTS) (ng : Option Fn) :
    GejLimb (strauss pts ng) (strauss PTS ng) :=
  straussWith_limb (t := shippedTab) hg hg' h ng

theorem ecmultWith_limb {t : GTab} (hg : ∀ i, Stored (t.g i)) (hg' : ∀ i, Stored (t.g128 i))
    (h : GejLimb a A) (na : Fn) (ng : Option Fn) : GejLimb (ecmultWith t a na ng) (ecmultWith t A na ng) :=
  straussWith_limb hg hg' (pts := [(a, na)]) (PTS := [(A, na)]) (.cons ⟨h, rfl⟩ .nil) ng

theorem ecmult_limb (hg : ∀ i, Stored (preG i)) (hg' : ∀ i, Stored (preG128 i))
    (h : GejLimb a A) (na : Fn) (ng : Option Fn) : GejLimb (ecmult a na ng) (ecmult A na ng) :=
  strauss_limb hg hg' (pts := [(a, na)]) (PTS := [(A, na)]) (.cons ⟨h, rfl⟩ .nil) ng

/-! ### Constant time -/

theorem GeTab.cmov {c d : Ge α} {C D : Ge Fp} (h : GeTab c C) (g : GeTab d D) (flag : Bool) :
    GeTab { { c with x := FeOps.cmov c.x d.x flag } with y := FeOps.cmov c.y d.y flag }
      { { C with x := FeOps.cmov C.x D.x flag } with y := FeOps.cmov C.y D.y flag } :=
  ⟨(h.x.cmov' g.x flag).mono (by omega), (h.y.cmov' g.y flag).mono (by omega), h.inf⟩

theorem constTableGetLoop_limb (h : Forall₂ GeTab pre PRE) (index : ℕ) : ∀ k : ℕ,
    GeTab (constTableGetLoop pre index k) (constTableGetLoop PRE index k)
  | 0 => ⟨(forall₂_getD GeTab.garbage h 0).x, (forall₂_getD GeTab.garbage h 0).y, rfl⟩
  | k + 1 => (constTableGetLoop_limb h index k).cmov (forall₂_getD GeTab.garbage h (k + 1)) (k + 1 == index)

theorem constTableGetGe_limb (h : Forall₂ GeTab pre PRE) (k : ℕ) :
    GeLimb (constTableGetGe pre k) (constTableGetGe PRE k) := by
  have hr := constTableGetLoop_limb h ((((2 ^ 32 - ((k >>> (constGroupSize - 1)) ^^^ 1)) % 2 ^ 32) ^^^ k) &&&
    (2 ^ (constGroupSize - 1) - 1)) (constTableSize - 1)
  exact ⟨hr.x, (hr.y.cmov' (hr.y.negate' 1) _).mono (by omega), rfl⟩

theorem gejDoubleN_limb : ∀ (k : ℕ) {a : Gej α} {A : Gej Fp}, GejLimb a A →
    GejLimb (gejDoubleN a k) (gejDoubleN A k)
  | 0, _, _, h => h
  | k + 1, _, _, h => gejDoubleN_limb k h.double

theorem constLoop_limb {preL : List (Ge α)} {PREL : List (Ge Fp)} (h : Forall₂ GeTab pre PRE)
    (hL : Forall₂ GeTab preL PREL) (v1 v2 : Fn) : ∀ (k : ℕ) {a : Gej α} {A : Gej Fp}, GejLimb a A →
    GejLimb (constLoop pre preL v1 v2 k a) (constLoop PRE PREL v1 v2 k A)
  | 0, _, _, g => g
  | k + 1, a, A, g => by
    unfold constLoop
    refine constLoop_limb h hL v1 v2 k (GejLimb.addGe ?_ (constTableGetGe_limb hL _))
    split_ifs
    · exact (constTableGetGe_limb h _).gej
    · exact (gejDoubleN_limb _ g).addGe (constTableGetGe_limb h _)

theorem GeTab.mulLambda (h : GeTab c C) : GeTab (geMulLambda c) (geMulLambda C) := by
  have hx := h.x.mul' (beta_limb (α := α))
  unfold geMulLambda
  exact ⟨hx.mono (by omega), h.y, h.inf⟩

theorem constOddMultiplesTableGlobalz_limb (h : GejLimb a A) :
    Forall₂ GeTab (constOddMultiplesTableGlobalz a).1 (constOddMultiplesTableGlobalz A).1 ∧
      Rep (constOddMultiplesTableGlobalz a).2 1 (constOddMultiplesTableGlobalz A).2 := by
  obtain ⟨t, z⟩ := oddMultiplesTable_limb h constTableSize
  unfold constOddMultiplesTableGlobalz
  exact ⟨tableSetGlobalz_limb t, z⟩

theorem ecmultConst_limb (h : GeLimb c C) (q : Fn) : GejLimb (ecmultConst c q) (ecmultConst C q) := by
  obtain ⟨hp, z⟩ := constOddMultiplesTableGlobalz_limb h.gej
  have hl := forall₂_map (fun _ _ h => GeTab.mulLambda h) hp
  unfold ecmultConst
  rw [h.inf]
  by_cases c1 : C.infinity = true
  · rw [if_pos c1, if_pos c1]
    exact GejLimb.infinity
  rw [if_neg c1, if_neg c1]
  dsimp only
  generalize (scSplitLambda (scHalf (q + scConst constK))).1 + scConst constSOffset = v1
  generalize (scSplitLambda (scHalf (q + scConst constK))).2 + scConst constSOffset = v2
  have r := constLoop_limb hp hl v1 v2 constGroups h.gej
  generalize constLoop _ _ _ _ _ (gejSetGe c) = s at r ⊢
  generalize constLoop _ _ _ _ _ (gejSetGe C) = S at r ⊢
  exact ⟨r.x, r.y, r.z.mul' z, r.inf⟩

/-! ### The generator -/

/-- Every entry of the comb table is a pair of 256-bit numbers. -/
def CombStored (c : CombCfg) : Prop := ∀ b i, Stored (c.table b i)

/-- The generator context on limbs. -/
structure GenCtxLimb (g : GenCtxOf α) (G : GenCtx) : Prop where
  cfg : g.cfg = G.cfg
  built : g.built = G.built
  scalarOffset : g.scalarOffset = G.scalarOffset
  geOffset : GeLimb g.geOffset G.geOffset
  projBlind : Rep g.projBlind 1 G.projBlind

structure GenStateLimb (s : GenStateOf α) (S : GenState) : Prop where
  r : GejLimb s.r S.r
  adds : s.adds = S.adds
  stored : Stored S.adds
  first : s.first = S.first
  bitPos : s.bitPos = S.bitPos

theorem genLookup_stored {c : CombCfg} (hc : CombStored c) (block : ℕ) (abs : UInt32) {adds : ℕ × ℕ}
    (h : Stored adds) : Stored (genLookup c block abs adds) := by
  unfold genLookup
  generalize List.range c.points = l
  induction l generalizing adds with
  | nil => exact h
  | cons i l ih =>
    rw [List.foldl_cons]
    refine ih ?_
    split_ifs
    · exact hc _ _
    · exact h

theorem genBlock_limb {g : GenCtxOf α} {G : GenCtx} (hg : GenCtxLimb g G) (hc : CombStored G.cfg)
    (recoded : List UInt32) {s : GenStateOf α} {S : GenState} (h : GenStateLimb s S) (block : ℕ) :
    GenStateLimb (genBlock g recoded s block) (genBlock G recoded S block) := by
  unfold genBlock
  dsimp only
  rw [hg.cfg, h.adds, h.first, h.bitPos]
  generalize (genGather recoded G.cfg.spacing G.cfg.teeth 0 0 S.bitPos).1 = bits
  have hs := genLookup_stored hc block ((bits ^^^ (-((bits >>> UInt32.ofNat (G.cfg.teeth - 1)) &&& 1))) &&&
    UInt32.ofNat (G.cfg.points - 1)) h.stored
  generalize genLookup G.cfg block _ S.adds = ad at *
  have hf := geFromStorage_limb (α := α) hs
  have ha : GeLimb { (geFromStorage ad : Ge α) with
        y := FeOps.cmov (geFromStorage ad : Ge α).y (negate (geFromStorage ad : Ge α).y 1)
          (((bits >>> UInt32.ofNat (G.cfg.teeth - 1)) &&& 1) != 0) }
      { (geFromStorage ad : Ge Fp) with
        y := FeOps.cmov (geFromStorage ad : Ge Fp).y (negate (geFromStorage ad : Ge Fp).y 1)
          (((bits >>> UInt32.ofNat (G.cfg.teeth - 1)) &&& 1) != 0) } :=
    ⟨hf.x, (hf.y.cmov' (hf.y.negate' 1) _).mono (by omega), rfl⟩
  by_cases c1 : S.first = true
  · rw [if_pos c1, if_pos c1]
    exact ⟨ha.gej.rescale hg.projBlind, rfl, hs, rfl, rfl⟩
  · rw [if_neg c1, if_neg c1]
    exact ⟨h.r.addGe ha, rfl, hs, rfl, rfl⟩

theorem genInner_limb {g : GenCtxOf α} {G : GenCtx} (hg : GenCtxLimb g G) (hc : CombStored G.cfg)
    (recoded : List UInt32) (off : ℕ) {s : GenStateOf α} {S : GenState} (h : GenStateLimb s S) :
    GenStateLimb (genInner g recoded off s) (genInner G recoded off S) := by
  unfold genInner
  rw [hg.cfg]
  have h0 : GenStateLimb { s with bitPos := off } { S with bitPos := off } :=
    ⟨h.r, h.adds, h.stored, h.first, rfl⟩
  generalize ({ s with bitPos := off } : GenStateOf α) = s' at h0
  generalize ({ S with bitPos := off } : GenState) = S' at h0
  generalize List.range G.cfg.blocks = l
  induction l generalizing s' S' with
  | nil => exact h0
  | cons i l ih => exact ih _ _ (genBlock_limb hg hc recoded h0 i)

theorem GenStateLimb.double {s : GenStateOf α} {S : GenState} (h : GenStateLimb s S) :
    GenStateLimb (genDouble s) (genDouble S) := by
  unfold genDouble
  exact ⟨h.r.double, h.adds, h.stored, h.first, h.bitPos⟩

theorem genOuter_limb {g : GenCtxOf α} {G : GenCtx} (hg : GenCtxLimb g G) (hc : CombStored G.cfg)
    (recoded : List UInt32) (k : ℕ) {s : GenStateOf α} {S : GenState} (h : GenStateLimb s S) :
    GenStateLimb (genOuter g recoded k s) (genOuter G recoded k S) := by
  unfold genOuter
  induction k generalizing s S with
  | zero =>
    rw [downLoop, downLoop]
    exact genInner_limb hg hc recoded 0 h
  | succ k ih =>
    rw [downLoop, downLoop]
    exact ih (genInner_limb hg hc recoded (k + 1) h).double

theorem ecmultGen_limb {g : GenCtxOf α} {G : GenCtx} (hg : GenCtxLimb g G) (hc : CombStored G.cfg)
    (k : Fn) : GejLimb (ecmultGen g k) (ecmultGen G k) := by
  unfold ecmultGen
  dsimp only
  rw [hg.cfg, hg.scalarOffset]
  have h := genOuter_limb hg hc (genRecode G.cfg (G.scalarOffset + k)) (G.cfg.spacing - 1)
    (s := ⟨⟨setInt 0, setInt 0, setInt 0, false⟩, (0, 0), true, 0⟩)
    (S := ⟨⟨setInt 0, setInt 0, setInt 0, false⟩, (0, 0), true, 0⟩)
    ⟨⟨(Rep.int 0).mono (by omega), (Rep.int 0).mono (by omega), Rep.int 0, rfl⟩, rfl,
      ⟨by norm_num, by norm_num⟩, rfl, rfl⟩
  exact h.r.addGe hg.geOffset

theorem geConstG_limb : GeLimb (geConstG : Ge α) geConstG :=
  ⟨(LimbRep.feConst (by decide)).mono (by omega), (LimbRep.feConst (by decide)).mono (by omega), rfl⟩

theorem genBlindReset_limb {g : GenCtxOf α} {G : GenCtx} (hc : g.cfg = G.cfg) (hb : g.built = G.built) :
    GenCtxLimb (genBlindReset g) (genBlindReset G) := by
  unfold genBlindReset
  rw [hc]
  generalize (1 + genScalarDiff G.cfg) = o
  exact ⟨rfl, hb, rfl, geConstG_limb.neg, Rep.int 1⟩

theorem genBlindFe_limb {f : α} {F : Fp} (h : Rep f 1 F) : Rep (genBlindFe f) 1 (genBlindFe F) := by
  unfold genBlindFe
  rw [h.toZero]
  exact (h.cmov' (Rep.int 1) _).mono (by omega)

theorem genBlindApply_limb (hi : LimbInvOk α) {g : GenCtxOf α} {G : GenCtx} (hg : GenCtxLimb g G)
    (hc : CombStored G.cfg) {f : α} {F : Fp} (hf : Rep f 1 F) (b : Fn) :
    GenCtxLimb (genBlindApply g f b) (genBlindApply G F b) := by
  have h1 : GenCtxLimb { g with projBlind := f } { G with projBlind := F } :=
    ⟨hg.cfg, hg.built, hg.scalarOffset, hg.geOffset, hf⟩
  have h2 := ecmultGen_limb h1 hc b
  unfold genBlindApply
  dsimp only
  rw [hg.cfg] at *
  generalize genScalarDiff G.cfg = o
  generalize ecmultGen (α := α) _ b = s at h2 ⊢
  generalize ecmultGen (α := Fp) _ b = S at h2 ⊢
  exact ⟨rfl, hg.built, rfl, h2.ge hi, hf⟩

end Secp.Model
