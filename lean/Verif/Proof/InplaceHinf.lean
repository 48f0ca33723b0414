import Verif.Proof.InplaceOdd
import Verif.Proof.EcmultLimb
import Verif.Proof.ComputeTable

/-!
# No intermediate point of the table of odd multiples is the point at infinity
-/

namespace Secp.Model.Mem

open FeOps

/-- The point `ai` of `secp256k1_ecmult_odd_multiples_table` after `j` rounds of the loop. -/
abbrev oddAi {α : Type} [FeOps α] (a : Gej α) (j : ℕ) : Gej α :=
  (fun g => (gejAddGeVar g (geSetXY (gejDoubleVar a).1.x (gejDoubleVar a).1.y)).1)^[j]
    { gejSetGe (geSetGejZinv a (gejDoubleVar a).1.z) with z := a.z }

theorem oddAi_fp {b : Fp} (hb : NoTwoTorsion b) {a : Gej Fp} {A : (curve b).Point} (ha : GejRep b a A)
    (j : ℕ) (h0 : ∀ i, i ≤ j → (2 * i + 1) • A ≠ 0) : (oddAi a j).infinity = false := by
  have hA : A ≠ 0 := by simpa using h0 0 (Nat.zero_le _)
  have hi : a.infinity = false := by
    by_contra hi
    exact hA (ha.inf_iff.1 (by simpa using hi))
  have hd := gejDoubleVar_rep hb ha
  have hdi : (gejDoubleVar a).1.infinity = false := by simp [gejDoubleVar, hi, gejDouble]
  obtain ⟨_, _, _, hC, _⟩ := hd.elim hdi
  have hd' := (rep_iff_iso hb hC).1 hd
  rw [hdi] at hd'
  unfold oddAi
  generalize (gejDoubleVar a).1 = d at *
  obtain ⟨x, y, hn, hz, hx, hy, e⟩ := ha.elim hi
  have hai : GejRep (b * d.z ^ 6) { gejSetGe (geSetGejZinv a d.z) with z := a.z } (iso hb hC A) := by
    rw [iso_rep, e]
    refine GejRep.intro (a := ⟨_, _, _, _⟩) hi (mul_ne_zero hz hC) ?_ ?_
    · simp only [gejSetGe, geSetGejZinv, mul, sqr]; rw [hx]; ring
    · simp only [gejSetGe, geSetGejZinv, mul, sqr]; rw [hy]; ring
  have hr : ∀ k, GejRep (b * d.z ^ 6) ((fun g => (gejAddGeVar g (geSetXY d.x d.y)).1)^[k]
      { gejSetGe (geSetGejZinv a d.z) with z := a.z }) (iso hb hC ((2 * k + 1) • A)) := by
    intro k
    induction k with
    | zero => simpa using hai
    | succ k ih =>
      rw [Function.iterate_succ_apply']
      have := gejAddGeVar_rep (iso_ntt hb hC) ih hd'
      rw [← map_add] at this
      have e : (2 * (k + 1) + 1) • A = (2 * k + 1) • A + (A + A) := by
        rw [← two_nsmul, ← add_smul]; congr 1
      rw [e]
      exact this
  by_contra hh
  have := (hr j).inf_iff.1 (by simpa using hh)
  rw [iso_eq_zero] at this
  exact h0 j le_rfl this

variable {α : Type} [FeOps α] [LimbRep α]

theorem oddAi_limb {a : Gej α} {A : Gej Fp} (h : GejLimb a A) (j : ℕ) :
    GejLimb (oddAi a j) (oddAi A j) := by
  have hd := h.doubleVar.1
  have hg : GeLimb (geSetXY (gejDoubleVar a).1.x (gejDoubleVar a).1.y)
      (geSetXY (gejDoubleVar A).1.x (gejDoubleVar A).1.y) := ⟨hd.x, h.doubleVar_y, rfl⟩
  have h0 := h.zinv hd.z
  unfold oddAi
  induction j with
  | zero => exact ⟨h0.x, h0.y.mono (by omega), h.z, h0.inf⟩
  | succ j ih =>
    rw [Function.iterate_succ_apply', Function.iterate_succ_apply']
    exact (ih.addGeVar hg).1

/-- The table of odd multiples of a point other than infinity, on memory. -/
theorem oddMultiplesTableM_pt (k pre zr zo : ℕ) (zc : Coord) (a d ai dge : ℕ) (hn : 1 ≤ k) (hk : 2 * k ≤ n)
    (hpz : pre + k ≤ zr ∨ zr + k ≤ pre)
    (hout : ∀ o ∈ [a, d, ai, dge, zo], (o < pre ∨ pre + k ≤ o) ∧ (o < zr ∨ zr + k ≤ o))
    (hd : [a, d, ai, dge].Nodup) (hz : zo ∉ [d, ai, dge]) (m : Mem α) {A : Gej Fp} {P : Pt}
    (hA : GejLimb (m.gej a) A) (hP : GejRep 7 A P) (h0 : P ≠ 0) :
    Ends (oddMultiplesTableM k pre zr (.obj zo zc) a d ai dge m) fun m' =>
      (m'.ges pre k).zip (m'.xs zr k) = (oddMultiplesTable k (m.gej a)).1 ∧
      m'.fe (.obj zo zc) = (oddMultiplesTable k (m.gej a)).2 ∧
      ∀ o c, ¬ (o ∈ [d, ai, dge] ∨ (pre ≤ o ∧ o < pre + k) ∨ (zr ≤ o ∧ o < zr + k)) →
        FePtr.obj o c ≠ .obj zo zc → m'.fe (.obj o c) = m.fe (.obj o c) ∧ m'.inf o = m.inf o :=
  oddMultiplesTableM_ok k pre zr zo zc a d ai dge hn hpz hout hd hz m fun j hj => by
    have := (oddAi_limb hA j).inf
    rw [oddAi_fp neg7_not_cube hP j (fun i hi => odd_smul_ne_zero h0 (by omega) (by omega))] at this
    exact this

/-- The table of odd multiples brought to one z coordinate, as `secp256k1_ecmult_strauss_wnaf` and
`secp256k1_ecmult_const` make it. -/
theorem oddTableM_pt (k pre zr zo : ℕ) (zc : Coord) (a d ai dge : ℕ) (hn : 1 ≤ k) (hk : 2 * k ≤ n)
    (hpz : pre + k ≤ zr ∨ zr + k ≤ pre)
    (hout : ∀ o ∈ [a, d, ai, dge, zo], (o < pre ∨ pre + k ≤ o) ∧ (o < zr ∨ zr + k ≤ o))
    (hd : [a, d, ai, dge].Nodup) (hz : zo ∉ [d, ai, dge]) (m : Mem α) {A : Gej Fp} {P : Pt}
    (hA : GejLimb (m.gej a) A) (hP : GejRep 7 A P) (h0 : P ≠ 0) :
    Ends (run [oddMultiplesTableM k pre zr (.obj zo zc) a d ai dge, tableSetGlobalzM k pre zr] m) fun m' =>
      (∀ j < k, m'.inf (pre + j) = false ∧ ∃ B, GejLimb ⟨m'.fe (px (pre + j)), m'.fe (py (pre + j)),
          m'.fe (.obj zo zc), false⟩ B ∧ GejRep 7 B ((2 * j + 1) • P)) ∧
      ∀ o c, ¬ (o ∈ [d, ai, dge] ∨ (pre ≤ o ∧ o < pre + k) ∨ (zr ≤ o ∧ o < zr + k)) →
        FePtr.obj o c ≠ .obj zo zc → m'.fe (.obj o c) = m.fe (.obj o c) ∧ m'.inf o = m.inf o := by
  refine Ends_cons (oddMultiplesTableM_pt k pre zr zo zc a d ai dge hn hk hpz hout hd hz m hA hP h0)
    fun m1 ⟨h1, h2, h3⟩ => Ends_one ?_
  refine (tableSetGlobalzM_ok k pre zr (by omega) m1).mono fun m2 ⟨g1, g2, g3⟩ => ⟨?_, ?_⟩
  · rw [h1] at g1
    obtain ⟨o1, o2, o3⟩ := oddMultiplesTable_spec neg7_not_cube hP k hn
      (fun i hi => odd_smul_ne_zero h0 (by omega) (by omega))
    obtain ⟨l1, l2⟩ := oddMultiplesTable_limb hA k
    obtain ⟨c1, c2⟩ := tableSetGlobalz_spec o3
    have t := tableSetGlobalz_limb l1
    rw [← g1] at t
    have hlen := t.length_eq
    have ez : m2.fe (.obj zo zc) = (oddMultiplesTable k (m.gej a)).2 := by
      rw [g2 zo zc ((hout zo (by simp)).1), h2]
    intro j hj
    have hj' : j < (m2.ges pre k).length := by simpa [Mem.ges] using hj
    have hj'' : j < (tableSetGlobalz (oddMultiplesTable k A).1).length := hlen ▸ hj'
    have e : (m2.ges pre k)[j] = m2.ge (pre + j) := by simp [Mem.ges]
    have tj := t.get hj' hj''
    simp only [List.get_eq_getElem, e] at tj
    obtain ⟨i1, i2⟩ := c1 j hj''
    refine ⟨tj.inf.trans i1, _, GejLimb.mk (A := ⟨_, _, _, _⟩) tj.x (tj.y.mono (by omega)) ?_ rfl, i2⟩
    rw [ez]
    exact l2
  · intro o c ho hc
    obtain ⟨h4, h5⟩ := h3 o c ho hc
    have : o < pre ∨ pre + k ≤ o := by
      by_contra hh
      exact ho (.inr (.inl (by omega)))
    rw [g2 o c this, g3 o this]
    exact ⟨h4, h5⟩

end Secp.Model.Mem
