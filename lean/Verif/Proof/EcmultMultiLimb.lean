import Verif.Proof.EcmultMulti
import Verif.Proof.ComputeTableOk
import Verif.Proof.EcmultLimb

/-!
# The multi-point multiplication on limbs refines the one on field values
-/

namespace Secp
open Model FeOps LimbRep List

variable {α : Type} [FeOps α] [LimbRep α]
variable {a b : Gej α} {A B : Gej Fp} {c d : Ge α} {C D : Ge Fp}

/-- A scalar and a point. -/
def TermLimb (q : Fn × Ge α) (Q : Fn × Ge Fp) : Prop := q.1 = Q.1 ∧ GeLimb q.2 Q.2

/-- The callbacks agree on the indices below `N`. -/
def CbLimb (N : ℕ) (cb : MultiCallbackOf α) (CB : MultiCallback) : Prop :=
  ∀ i < N, Option.Rel TermLimb (cb i) (CB i)

theorem GejLimb.garbage : GejLimb (gejGarbage : Gej α) gejGarbage :=
  have h : Rep (setInt 0 : α) 1 (setInt 0 : Fp) := Rep.int 0
  ⟨h.mono (by omega), h.mono (by omega), h, rfl⟩

theorem geGarbage_limb : GeLimb (geGarbage : Ge α) geGarbage := GeTab.garbage.ge

theorem GeLimb.mulLambda (h : GeLimb c C) : GeLimb (geMulLambda c) (geMulLambda C) := by
  have hx := h.x.mul' (beta_limb (α := α))
  unfold geMulLambda
  exact ⟨hx.mono (by omega), h.y, h.inf⟩

/-! ### Pippenger's algorithm -/

theorem pippPrep_limb (w : ℕ) {l : List (Fn × Ge α)} {L : List (Fn × Ge Fp)} (h : Forall₂ TermLimb l L) :
    ∀ np, pippPrep w np l = pippPrep w np L := by
  induction h with
  | nil => intro np; rfl
  | @cons q Q l L h _ ih =>
    intro np
    obtain ⟨s, P⟩ := q
    obtain ⟨S, PP⟩ := Q
    obtain ⟨e, g⟩ := h
    dsimp only at e g
    subst e
    rw [pippPrep, pippPrep, g.inf, ih]

theorem forall₂_set {β γ : Type} {R : β → γ → Prop} {l : List β} {L : List γ} (h : Forall₂ R l L) {x : β} {X : γ}
    (hx : R x X) : ∀ i, Forall₂ R (l.set i x) (L.set i X) := by
  induction h with
  | nil => intro i; exact .nil
  | cons h hl ih =>
    intro i
    cases i with
    | zero => exact .cons hx hl
    | succ i => exact .cons h (ih i)

theorem bucketAdd_limb {l : List (Gej α)} {L : List (Gej Fp)} (h : Forall₂ GejLimb l L) (idx : ℕ)
    (g : GeLimb c C) : Forall₂ GejLimb (bucketAdd l idx c) (bucketAdd L idx C) :=
  forall₂_set h ((forall₂_getD GejLimb.garbage h idx).addGeVar g).1 idx

theorem pippBucket_limb {pts : List (Fn × Ge α)} {PTS : List (Fn × Ge Fp)} (hp : Forall₂ TermLimb pts PTS) (i : ℕ)
    (ps : PippPoint) {l : List (Gej α)} {L : List (Gej Fp)} (h : Forall₂ GejLimb l L) :
    Forall₂ GejLimb (pippBucket pts i l ps) (pippBucket PTS i L ps) := by
  have g : GeLimb (pts.getD ps.inputPos (0, geGarbage)).2 (PTS.getD ps.inputPos (0, geGarbage)).2 :=
    (forall₂_getD (R := TermLimb (α := α)) (d := (0, geGarbage)) (D := (0, geGarbage)) ⟨rfl, geGarbage_limb⟩ hp ps.inputPos).2
  unfold pippBucket
  dsimp only
  have h' : Forall₂ GejLimb
      (if i = 0 ∧ ps.skewNa ≠ 0 then bucketAdd l 0 (geNeg (pts.getD ps.inputPos (0, geGarbage)).2) else l)
      (if i = 0 ∧ ps.skewNa ≠ 0 then bucketAdd L 0 (geNeg (PTS.getD ps.inputPos (0, geGarbage)).2) else L) := by
    split_ifs
    · exact bucketAdd_limb h _ g.neg
    · exact h
  split_ifs at h' ⊢
  all_goals first
    | exact bucketAdd_limb h' _ g
    | exact bucketAdd_limb h' _ g.neg
    | exact h'

theorem doubleTimes_limb : ∀ (k : ℕ) {a : Gej α} {A : Gej Fp}, GejLimb a A →
    GejLimb (doubleTimes k a) (doubleTimes k A)
  | 0, _, _, h => h
  | k + 1, _, _, h => doubleTimes_limb k h.doubleVar.1

theorem pippSumLoop_limb {l : List (Gej α)} {L : List (Gej Fp)} (h : Forall₂ GejLimb l L) :
    ∀ (j : ℕ) {s r : Gej α} {S R : Gej Fp}, GejLimb s S → GejLimb r R →
      GejLimb (pippSumLoop l j s r).1 (pippSumLoop L j S R).1 ∧
        GejLimb (pippSumLoop l j s r).2 (pippSumLoop L j S R).2
  | 0, _, _, _, _, hs, hr => ⟨hs, hr⟩
  | j + 1, _, _, _, _, hs, hr => by
    have h1 := (hs.addVar (forall₂_getD GejLimb.garbage h (j + 1))).1
    exact pippSumLoop_limb h j h1 (hr.addVar h1).1

theorem pippRound_limb {pts : List (Fn × Ge α)} {PTS : List (Fn × Ge Fp)} (hp : Forall₂ TermLimb pts PTS)
    (ps : List PippPoint) (bw i : ℕ) (h : GejLimb a A) :
    GejLimb (pippRound pts ps bw i a) (pippRound PTS ps bw i A) := by
  unfold pippRound
  dsimp only
  have hb : ∀ (ps : List PippPoint) {l : List (Gej α)} {L : List (Gej Fp)}, Forall₂ GejLimb l L →
      Forall₂ GejLimb (ps.foldl (pippBucket pts i) l) (ps.foldl (pippBucket PTS i) L) := by
    intro ps
    induction ps with
    | nil => intro l L h; exact h
    | cons p ps ih => intro l L h; exact ih (pippBucket_limb hp i p h)
  have h0 : Forall₂ GejLimb (replicate (ecmultTableSize (bw + 2)) (gejInfinity : Gej α))
      (replicate (ecmultTableSize (bw + 2)) (gejInfinity : Gej Fp)) := by
    generalize ecmultTableSize (bw + 2) = k
    induction k with
    | zero => exact .nil
    | succ k ih => exact .cons GejLimb.infinity ih
  have h1 := hb ps h0
  have h2 := pippSumLoop_limb h1 (ecmultTableSize (bw + 2) - 1) GejLimb.infinity (doubleTimes_limb bw h)
  have h3 := (h2.1.addVar (forall₂_getD GejLimb.garbage h1 0)).1
  exact (h2.2.doubleVar.1.addVar h3).1

theorem pippLoop_limb {pts : List (Fn × Ge α)} {PTS : List (Fn × Ge Fp)} (hp : Forall₂ TermLimb pts PTS)
    (ps : List PippPoint) (bw : ℕ) : ∀ (i : ℕ) {a : Gej α} {A : Gej Fp}, GejLimb a A →
    GejLimb (pippLoop pts ps bw i a) (pippLoop PTS ps bw i A)
  | 0, _, _, h => h
  | i + 1, _, _, h => pippLoop_limb hp ps bw i (pippRound_limb hp ps bw i h)

theorem pippengerWnaf_limb (bw : ℕ) {pts : List (Fn × Ge α)} {PTS : List (Fn × Ge Fp)}
    (hp : Forall₂ TermLimb pts PTS) : GejLimb (pippengerWnaf bw pts) (pippengerWnaf bw PTS) := by
  unfold pippengerWnaf
  dsimp only
  rw [pippPrep_limb _ hp]
  split_ifs
  · exact GejLimb.infinity
  · exact pippLoop_limb hp _ _ _ GejLimb.infinity

/-! ### Batches -/

theorem endoSplit_limb (s : Fn) (h : GeLimb c C) :
    TermLimb (endoSplit s c).1 (endoSplit s C).1 ∧ TermLimb (endoSplit s c).2 (endoSplit s C).2 := by
  unfold endoSplit
  dsimp only
  constructor
  · split_ifs
    · exact ⟨rfl, h.neg⟩
    · exact ⟨rfl, h⟩
  · split_ifs
    · exact ⟨rfl, (GeLimb.mulLambda h).neg⟩
    · exact ⟨rfl, GeLimb.mulLambda h⟩

theorem pippFill_limb {N : ℕ} {cb : MultiCallbackOf α} {CB : MultiCallback} (hcb : CbLimb N cb CB) :
    ∀ (k i : ℕ), i + k ≤ N → Option.Rel (Forall₂ TermLimb) (pippFill cb k i) (pippFill CB k i)
  | 0, _, _ => .some .nil
  | k + 1, i, hk => by
    rw [pippFill, pippFill]
    have r := hcb i (by omega)
    revert r
    generalize cb i = q
    generalize CB i = Q
    intro r
    cases r with
    | none => exact .none
    | @some q Q r =>
      obtain ⟨s, P⟩ := q
      obtain ⟨S, Q⟩ := Q
      obtain ⟨e, l⟩ := r
      dsimp only at e l ⊢
      subst e
      have ih := pippFill_limb hcb k (i + 1) (by omega)
      revert ih
      generalize pippFill cb k (i + 1) = u
      generalize pippFill CB k (i + 1) = U
      intro ih
      cases ih with
      | none => exact .none
      | some ih => exact .some (.cons (endoSplit_limb s l).1 (.cons (endoSplit_limb s l).2 ih))

theorem pippFillG_limb (g : Option Fn) : Forall₂ TermLimb (pippFillG g : List (Fn × Ge α)) (pippFillG g) := by
  cases g with
  | none => exact .nil
  | some g =>
    have h := endoSplit_limb g (geConstG_limb (α := α))
    exact .cons h.1 (.cons h.2 .nil)

theorem straussFill_limb {N : ℕ} {cb : MultiCallbackOf α} {CB : MultiCallback} (hcb : CbLimb N cb CB) :
    ∀ (k i : ℕ), i + k ≤ N →
      Option.Rel (Forall₂ fun (q : Gej α × Fn) (Q : Gej Fp × Fn) => GejLimb q.1 Q.1 ∧ q.2 = Q.2)
        (straussFill cb k i) (straussFill CB k i)
  | 0, _, _ => .some .nil
  | k + 1, i, hk => by
    rw [straussFill, straussFill]
    have r := hcb i (by omega)
    revert r
    generalize cb i = q
    generalize CB i = Q
    intro r
    cases r with
    | none => exact .none
    | @some q Q r =>
      obtain ⟨s, P⟩ := q
      obtain ⟨S, Q⟩ := Q
      obtain ⟨e, l⟩ := r
      dsimp only at e l ⊢
      subst e
      have ih := straussFill_limb hcb k (i + 1) (by omega)
      revert ih
      generalize straussFill cb k (i + 1) = u
      generalize straussFill CB k (i + 1) = U
      intro ih
      cases ih with
      | none => exact .none
      | some ih => exact .some (.cons ⟨l.gej, rfl⟩ ih)

/-- The same effects and the same point. -/
structure OutLimb (o : BatchOut α) (O : BatchOut Fp) : Prop where
  res : Option.Rel GejLimb o.res O.res
  scratch : o.scratch = O.scratch
  errors : o.errors = O.errors

variable [T : Target]

theorem straussBatch_limb {N : ℕ} {cb : MultiCallbackOf α} {CB : MultiCallback} (hcb : CbLimb N cb CB) (al : ℕ)
    (s : Scratch) (g : Option Fn) {m off : ℕ} (h : off + m ≤ N) :
    OutLimb (straussBatch al s g cb m off) (straussBatch al s g CB m off) := by
  unfold straussBatch
  dsimp only
  split_ifs
  · exact ⟨.some GejLimb.infinity, rfl, rfl⟩
  · exact ⟨.none, rfl, rfl⟩
  · have r := straussFill_limb hcb m off h
    revert r
    generalize straussFill cb m off = u
    generalize straussFill CB m off = U
    intro r
    cases r with
    | none => exact ⟨.none, rfl, rfl⟩
    | some r => exact ⟨.some (strauss_limb preG_stored preG128_stored r g), rfl, rfl⟩

theorem pippengerBatch_limb {N : ℕ} {cb : MultiCallbackOf α} {CB : MultiCallback} (hcb : CbLimb N cb CB) (al : ℕ)
    (s : Scratch) (g : Option Fn) {m off : ℕ} (h : off + m ≤ N) :
    OutLimb (pippengerBatch al s g cb m off) (pippengerBatch al s g CB m off) := by
  unfold pippengerBatch
  dsimp only
  split_ifs
  · exact ⟨.some GejLimb.infinity, rfl, rfl⟩
  · exact ⟨.none, rfl, rfl⟩
  · have r := pippFill_limb hcb m off h
    revert r
    generalize pippFill cb m off = u
    generalize pippFill CB m off = U
    intro r
    cases r with
    | none => exact ⟨.none, rfl, rfl⟩
    | some r =>
      exact ⟨.some (pippengerWnaf_limb _ (List.rel_append (pippFillG_limb g) r)), rfl, rfl⟩

theorem batchLoop_limb {f : Scratch → Option Fn → ℕ → ℕ → BatchOut α} {F : Scratch → Option Fn → ℕ → ℕ → BatchOut Fp}
    {N nbp : ℕ} (hN : N < szMod) (h1 : 1 ≤ nbp)
    (hf : ∀ s g m off, off + m ≤ N → OutLimb (f s g m off) (F s g m off)) (g : Option Fn) :
    ∀ (k i n : ℕ) (_ : k ≠ 0 → nbp * i + n = N) (_ : n ≤ k * nbp) (_ : k ≠ 0 → (k - 1) * nbp < n) (s : Scratch)
      (e : ℕ) {a : Gej α} {A : Gej Fp}, GejLimb a A →
      OutLimb (batchLoop f g nbp k i n s e a) (batchLoop F g nbp k i n s e A)
  | 0, _, _, _, _, _, _, _, _, _, h => ⟨.some h, rfl, rfl⟩
  | k + 1, i, n, hi, hn, hk, s, e, a, A, h => by
    obtain ⟨m1, m2, m3, m4, m5, m6⟩ := batch_step h1 (hi (by omega)) hn (hk (by omega))
    have hi' := hi (by omega)
    simp only [batchLoop]
    set m := (if n < nbp then n else nbp) with hm
    rw [Nat.mod_eq_of_lt (show nbp * i < szMod by omega)]
    have B := hf s (if i = 0 then g else none) m (nbp * i) (by omega)
    revert B
    generalize f s (if i = 0 then g else none) m (nbp * i) = o
    generalize F s (if i = 0 then g else none) m (nbp * i) = O
    intro B
    obtain ⟨r1, s1, e1⟩ := o
    obtain ⟨r2, s2, e2⟩ := O
    obtain ⟨b1, b2, b3⟩ := B
    dsimp only at b1 b2 b3 ⊢
    subst b2 b3
    cases b1 with
    | none => exact ⟨.none, rfl, rfl⟩
    | some b =>
      exact batchLoop_limb hN h1 hf g k (i + 1) (n - m) (fun hk0 => (m6 hk0).2.1) m5 (fun hk0 => (m6 hk0).2.2) _ _
        (h.addVar b).1

omit T in
theorem multiSimple_limb {N : ℕ} {cb : MultiCallbackOf α} {CB : MultiCallback} (hcb : CbLimb N cb CB) :
    ∀ (k i : ℕ) {a : Gej α} {A : Gej Fp}, i + k ≤ N → GejLimb a A →
      Option.Rel GejLimb (multiSimpleLoop cb k i a) (multiSimpleLoop CB k i A)
  | 0, _, _, _, _, h => .some h
  | k + 1, i, a, A, hk, h => by
    rw [multiSimpleLoop, multiSimpleLoop]
    have r := hcb i (by omega)
    revert r
    generalize cb i = q
    generalize CB i = Q
    intro r
    cases r with
    | none => exact .none
    | @some q Q r =>
      obtain ⟨s, P⟩ := q
      obtain ⟨S, Q⟩ := Q
      obtain ⟨e, l⟩ := r
      dsimp only at e l ⊢
      subst e
      exact multiSimple_limb hcb k _ (by omega)
        (h.addVar (ecmult_limb preG_stored preG128_stored l.gej s none)).1

theorem ecmultMultiVar_limb {n : ℕ} (hn : n < szMod) {cb : MultiCallbackOf α} {CB : MultiCallback}
    (hcb : CbLimb n cb CB) (al : ℕ) (s : Scratch) (g : Option Fn) :
    OutLimb (ecmultMultiVar al s g cb n) (ecmultMultiVar al s g CB n) := by
  have hinf := ecmult_limb preG_stored preG128_stored (GejLimb.infinity (α := α)) 0 g
  have hsimple : ∀ e, OutLimb ⟨ecmultMultiSimpleVar g cb n, s, e⟩ ⟨ecmultMultiSimpleVar g CB n, s, e⟩ :=
    fun e => ⟨multiSimple_limb hcb n 0 (by omega) hinf, rfl, rfl⟩
  unfold ecmultMultiVar
  by_cases h0 : g = none ∧ n = 0
  · rw [if_pos h0, if_pos h0]
    exact ⟨.some GejLimb.infinity, rfl, rfl⟩
  rw [if_neg h0, if_neg h0]
  by_cases h1 : n = 0
  · rw [if_pos h1, if_pos h1]
    exact ⟨.some hinf, rfl, rfl⟩
  rw [if_neg h1, if_neg h1]
  dsimp only
  cases hb : batchSizeHelper (pippMaxPoints al s).1 n with
  | none => exact hsimple _
  | some q =>
    obtain ⟨nb, nbp⟩ := q
    dsimp only
    split_ifs
    · obtain ⟨b1, b2, b3, b4, b5, b6⟩ := batchSizeHelper_spec (by omega) hn hb
      exact batchLoop_limb hn b2 (fun s g m off h => pippengerBatch_limb hcb al s g h) g nb 0 n (fun _ => by omega) b5
        (fun _ => b4) s _ GejLimb.infinity
    · cases hb : batchSizeHelper (straussMaxPoints al s).1 n with
      | none => exact hsimple _
      | some q =>
        obtain ⟨nb, nbp⟩ := q
        obtain ⟨b1, b2, b3, b4, b5, b6⟩ := batchSizeHelper_spec (by omega) hn hb
        exact batchLoop_limb hn b2 (fun s g m off h => straussBatch_limb hcb al s g h) g nb 0 n (fun _ => by omega) b5
          (fun _ => b4) s _ GejLimb.infinity

end Secp
