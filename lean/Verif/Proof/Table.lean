import Verif.Proof.Wnaf

/-! # Tables of odd multiples with a common denominator -/

namespace Secp
open WeierstrassCurve Model FeOps

/-- `rzr` of `secp256k1_gej_add_ge_var` is the ratio of the z coordinates. -/
theorem gejAddGeVar_rzr {F : Type} [Field F] [DecidableEq F] {a : Gej F} {c : Ge F}
    (ha : a.infinity = false) (hc : c.infinity = false)
    (hr : (gejAddGeVar a c).1.infinity = false) :
    ∃ r, (gejAddGeVar a c).2 = some r ∧ (gejAddGeVar a c).1.z = a.z * r := by
  revert hr
  unfold gejAddGeVar
  simp only [ha, hc, Bool.false_eq_true, if_false]
  split
  · split
    · intro _
      unfold gejDoubleVar
      simp only [ha, Bool.false_eq_true, if_false]
      exact ⟨_, rfl, rfl⟩
    · intro hr; simp [gejInfinity] at hr
  · intro _
    exact ⟨_, rfl, rfl⟩

/-- A table of entries with z-ratios, starting from the z coordinate `zp` and ending at `zl`: entry
number `j`, with its implied z coordinate, is the point `f j`. -/
def Chain (b : Fp) : Fp → List (Ge Fp × Fp) → (ℕ → (curve b).Point) → Fp → Prop
  | zp, [], _, zl => zp = zl
  | zp, e :: t, f, zl => e.2 ≠ 0 ∧ e.1.infinity = false ∧
      GejRep b ⟨e.1.x, e.1.y, zp * e.2, false⟩ (f 0) ∧ Chain b (zp * e.2) t (fun j => f (j + 1)) zl

theorem Chain.congr {b : Fp} {l : List (Ge Fp × Fp)} : ∀ {zp zl : Fp} {f g : ℕ → (curve b).Point},
    (∀ j, j < l.length → f j = g j) → Chain b zp l f zl → Chain b zp l g zl := by
  induction l with
  | nil => intro zp zl f g _ h; exact h
  | cons e t ih =>
    intro zp zl f g hfg h
    obtain ⟨h1, h2, h3, h4⟩ := h
    refine ⟨h1, h2, ?_, ih (fun j hj => hfg (j + 1) (by simpa using hj)) h4⟩
    rw [← hfg 0 (by simp)]; exact h3

theorem Chain.append {b : Fp} {l l' : List (Ge Fp × Fp)} :
    ∀ {zp zm zl : Fp} {f : ℕ → (curve b).Point}, Chain b zp l f zm →
      Chain b zm l' (fun j => f (j + l.length)) zl → Chain b zp (l ++ l') f zl := by
  induction l with
  | nil => intro zp zm zl f h h'; cases h; exact h'
  | cons e t ih =>
    intro zp zm zl f h h'
    obtain ⟨h1, h2, h3, h4⟩ := h
    exact ⟨h1, h2, h3, ih h4 (h'.congr (fun j _ => by simp [add_assoc]))⟩

theorem Chain.snoc {b : Fp} {l : List (Ge Fp × Fp)} {e : Ge Fp × Fp} :
    ∀ {zp zl : Fp} {f : ℕ → (curve b).Point}, Chain b zp (l ++ [e]) f zl →
      ∃ zm, Chain b zp l f zm ∧ zm * e.2 = zl ∧ e.2 ≠ 0 ∧ e.1.infinity = false ∧
        GejRep b ⟨e.1.x, e.1.y, zl, false⟩ (f l.length) := by
  induction l with
  | nil =>
    intro zp zl f h
    obtain ⟨h1, h2, h3, h4⟩ := h
    cases h4
    exact ⟨zp, rfl, rfl, h1, h2, h3⟩
  | cons e' t ih =>
    intro zp zl f h
    obtain ⟨h1, h2, h3, h4⟩ := h
    obtain ⟨zm, a1, a2, a3, a4, a5⟩ := ih h4
    exact ⟨zm, ⟨h1, h2, h3, a1⟩, a2, a3, a4, a5⟩

/-- Entries brought to the common z coordinate `zl`. -/
def CommonZ (b zl : Fp) (l : List (Ge Fp)) (f : ℕ → (curve b).Point) : Prop :=
  ∀ j (h : j < l.length), (l[j]).infinity = false ∧
    GejRep b ⟨(l[j]).x, (l[j]).y, zl, false⟩ (f j)

theorem rescale_rep {b x y z zs : Fp} {P : (curve b).Point} (h : GejRep b ⟨x, y, z, false⟩ P)
    (hz : zs ≠ 0) : GejRep b ⟨x * zs ^ 2, y * zs ^ 3, z * zs, false⟩ P := by
  obtain ⟨x₁, y₁, hn, h0, hx, hy, rfl⟩ := h.elim rfl
  simp only at h0 hx hy
  apply GejRep.intro rfl (mul_ne_zero h0 hz)
  · simp only; rw [hx]; ring
  · simp only; rw [hy]; ring

theorem globalzLoop_spec {b zl : Fp} (l : List (Ge Fp × Fp)) :
    ∀ (zp zm zs : Fp) (f : ℕ → (curve b).Point) (acc : List (Ge Fp)), Chain b zp l f zm →
      zs ≠ 0 → zm * zs = zl → CommonZ b zl acc (fun j => f (j + l.length)) →
      CommonZ b zl (globalzLoop l.reverse zs acc) f ∧
        (globalzLoop l.reverse zs acc).length = l.length + acc.length := by
  induction l using List.reverseRecOn with
  | nil =>
    intro zp zm zs f acc _ _ _ hacc
    exact ⟨hacc, by simp [globalzLoop]⟩
  | append_singleton l e ih =>
    intro zp zm zs f acc h hz he hacc
    obtain ⟨zm', h1, h2, h3, h4, h5⟩ := h.snoc
    obtain ⟨ge, r⟩ := e
    simp only at h2 h3 h4 h5
    rw [List.reverse_append, List.reverse_singleton, List.singleton_append, globalzLoop]
    have := ih zp zm' (mul zs r) f (geSetGeZinv ge zs :: acc) h1
      (mul_ne_zero hz h3) (by simp only [mul]; rw [← he, ← h2]; ring) ?_
    · refine ⟨this.1, ?_⟩
      rw [this.2]; simp; ring
    · intro j hj
      cases j with
      | zero =>
        simp only [List.getElem_cons_zero, zero_add]
        refine ⟨h4, ?_⟩
        have h6 := rescale_rep h5 hz
        rw [he] at h6
        simp only [geSetGeZinv, mul, sqr]
        convert h6 using 2 <;> ring
      | succ j =>
        simp only [List.getElem_cons_succ]
        have := hacc j (by simpa using hj)
        simp only [List.length_append, List.length_singleton] at this
        rw [show j + 1 + l.length = j + (l.length + 1) by ring]
        exact this

theorem tableSetGlobalz_spec {b zp zl : Fp} {l : List (Ge Fp × Fp)} {f : ℕ → (curve b).Point}
    (h : Chain b zp l f zl) :
    CommonZ b zl (tableSetGlobalz l) f ∧ (tableSetGlobalz l).length = l.length := by
  induction l using List.reverseRecOn with
  | nil => exact ⟨fun j hj => absurd hj (by simp [tableSetGlobalz]), rfl⟩
  | append_singleton l e _ =>
    obtain ⟨zm, h1, h2, h3, h4, h5⟩ := h.snoc
    obtain ⟨ge, r⟩ := e
    simp only at h2 h3 h4 h5
    unfold tableSetGlobalz
    rw [List.reverse_append, List.reverse_singleton, List.singleton_append]
    simp only
    have := globalzLoop_spec l zp zm r f [{ ge with y := normalizeWeak ge.y }] h1 h3 h2 ?_
    · refine ⟨this.1, ?_⟩
      rw [this.2]; simp
    · intro j hj
      simp only [List.length_singleton, Nat.lt_one_iff] at hj
      subst hj
      simp only [List.getElem_cons_zero, zero_add]
      exact ⟨h4, h5⟩

theorem oddMultiplesLoop_spec {b : Fp} (hb : NoTwoTorsion b) {C : Fp} (hC : C ≠ 0) {d : Ge Fp}
    {D : (curve b).Point} (hd : GeRep (b * C ^ 6) d (iso hb hC D)) (hdi : d.infinity = false) :
    ∀ (k : ℕ) (ai : Gej Fp) (Q : (curve b).Point), GejRep (b * C ^ 6) ai (iso hb hC Q) →
      (∀ j, j ≤ k → Q + j • D ≠ 0) →
      (oddMultiplesLoop d k ai).1.length = k ∧ (oddMultiplesLoop d k ai).2.z ≠ 0 ∧
        Chain b (ai.z * C) (oddMultiplesLoop d k ai).1 (fun j => Q + (j + 1) • D)
          ((oddMultiplesLoop d k ai).2.z * C) := by
  intro k
  induction k with
  | zero =>
    intro ai Q h h0
    refine ⟨rfl, ?_, rfl⟩
    have hi : ai.infinity = false := by
      by_contra hi
      have := h.inf_iff.1 (by simpa using hi)
      rw [iso_eq_zero] at this
      exact h0 0 le_rfl (by rw [this]; simp)
    obtain ⟨_, _, _, hz, _⟩ := h.elim hi
    exact hz
  | succ k ih =>
    intro ai Q h h0
    have hi : ai.infinity = false := by
      by_contra hi
      have := h.inf_iff.1 (by simpa using hi)
      rw [iso_eq_zero] at this
      exact h0 0 (Nat.zero_le _) (by rw [this]; simp)
    have hs := gejAddGeVar_rep (iso_ntt hb hC) h hd
    rw [← map_add] at hs
    have hsi : (gejAddGeVar ai d).1.infinity = false := by
      by_contra hi
      have := hs.inf_iff.1 (by simpa using hi)
      rw [iso_eq_zero] at this
      exact h0 1 (by omega) (by rw [one_smul]; exact this)
    obtain ⟨r, hr1, hr2⟩ := gejAddGeVar_rzr hi hdi hsi
    obtain ⟨l1, l2, l3⟩ := ih (gejAddGeVar ai d).1 (Q + D) hs (fun j hj => by
      have := h0 (j + 1) (by omega)
      rwa [add_smul, one_smul, add_comm (_ • D), ← add_assoc] at this)
    obtain ⟨_, _, _, hz, _⟩ := hs.elim hsi
    unfold oddMultiplesLoop
    simp only
    rw [hr1]
    simp only [Option.getD_some]
    have ez : ai.z * C * r = (gejAddGeVar ai d).1.z * C := by rw [hr2]; ring
    refine ⟨by simp [l1], l2, ?_, rfl, ?_, ?_⟩
    · simp only
      rintro rfl
      rw [hr2, mul_zero] at hz; exact hz rfl
    · simp only [geSetXY, zero_add, one_smul]
      rw [ez]
      have := (iso_rep hb hC).1 hs
      rw [hsi] at this
      exact this
    · simp only
      rw [ez]
      exact l3.congr (fun j _ => by simp only [add_smul, one_smul]; abel)

/-- `secp256k1_ecmult_odd_multiples_table`: entry `j` is `(2j+1)·A`. -/
theorem oddMultiplesTable_spec {b : Fp} (hb : NoTwoTorsion b) {a : Gej Fp} {A : (curve b).Point}
    (ha : GejRep b a A) (cnt : ℕ) (hcnt : 1 ≤ cnt) (h0 : ∀ j, j < cnt → (2 * j + 1) • A ≠ 0) :
    (oddMultiplesTable cnt a).1.length = cnt ∧ (oddMultiplesTable cnt a).2 ≠ 0 ∧
      Chain b a.z (oddMultiplesTable cnt a).1 (fun j => (2 * j + 1) • A)
        (oddMultiplesTable cnt a).2 := by
  have hA : A ≠ 0 := by simpa using h0 0 hcnt
  have hi : a.infinity = false := by
    by_contra hi
    exact hA (ha.inf_iff.1 (by simpa using hi))
  have hd := gejDoubleVar_rep hb ha
  have hdi : (gejDoubleVar a).1.infinity = false := by simp [gejDoubleVar, hi, gejDouble]
  obtain ⟨_, _, _, hC, _⟩ := hd.elim hdi
  have hd' := (rep_iff_iso hb hC).1 hd
  rw [hdi] at hd'
  unfold oddMultiplesTable
  simp only
  generalize (gejDoubleVar a).1 = d at *
  obtain ⟨x, y, hn, hz, hx, hy, e⟩ := ha.elim hi
  have hai : GejRep (b * d.z ^ 6) { gejSetGe (geSetGejZinv a d.z) with z := a.z } (iso hb hC A) := by
    rw [iso_rep, e]
    refine GejRep.intro (a := ⟨_, _, _, _⟩) hi (mul_ne_zero hz hC) ?_ ?_
    · simp only [gejSetGe, geSetGejZinv, mul, sqr]; rw [hx]; ring
    · simp only [gejSetGe, geSetGejZinv, mul, sqr]; rw [hy]; ring
  obtain ⟨l1, l2, l3⟩ := oddMultiplesLoop_spec hb hC (d := geSetXY d.x d.y) hd' rfl (cnt - 1) _ A hai
    (fun j hj => by
      have := h0 j (by omega)
      rw [← two_nsmul, ← mul_smul]
      rwa [add_comm, mul_comm, add_smul, one_smul] at this)
  refine ⟨by simp [l1]; omega, mul_ne_zero l2 hC, hC, hi, ?_, ?_⟩
  · have := (iso_rep hb hC).1 hai
    simp only [gejSetGe, hi, geSetGejZinv] at this ⊢
    simpa using this
  · simp only
    refine l3.congr (fun j _ => ?_)
    rw [← two_nsmul, ← mul_smul, add_comm (2 * (j + 1)), add_smul 1, one_smul, mul_comm 2]

end Secp
