import Verif.Proof.InplaceAll

/-!
# The table of odd multiples on memory
-/

namespace Secp.Model.Mem

open FeOps

variable {α : Type}

/-- Objects that are not in `S` are the same. -/
def SameOff (S : ℕ → Prop) (m m' : Mem α) : Prop :=
  ∀ o, ¬ S o → (∀ c, m'.fe (.obj o c) = m.fe (.obj o c)) ∧ m'.inf o = m.inf o

theorem SameOff.gej {S : ℕ → Prop} {m m' : Mem α} (h : SameOff S m m') {o : ℕ} (ho : ¬ S o) :
    m'.gej o = m.gej o := by
  simp [Mem.gej, (h o ho).1, (h o ho).2]

theorem SameOff.ge {S : ℕ → Prop} {m m' : Mem α} (h : SameOff S m m') {o : ℕ} (ho : ¬ S o) :
    m'.ge o = m.ge o := by
  simp [Mem.ge, (h o ho).1, (h o ho).2]

theorem SameOff.trans {S : ℕ → Prop} {m m' m'' : Mem α} (h : SameOff S m m') (h' : SameOff S m' m'') :
    SameOff S m m'' := fun o ho =>
  ⟨fun c => by rw [(h' o ho).1, (h o ho).1], by rw [(h' o ho).2, (h o ho).2]⟩

theorem SameOff.mono {S T : ℕ → Prop} {m m' : Mem α} (h : SameOff S m m') (hst : ∀ o, S o → T o) :
    SameOff T m m' := fun o ho => h o fun hs => ho (hst o hs)

theorem SameBut.off {r : ℕ} {w : Option FePtr} {m m' : Mem α} (h : SameBut r w m m') :
    SameOff (fun o => o = r ∨ ∃ c, w = some (.obj o c)) m m' := fun o ho =>
  ⟨fun c => h.1 o c (fun e => ho (Or.inl e)) fun e => ho (Or.inr ⟨c, e⟩), h.2 o fun e => ho (Or.inl e)⟩

theorem wr_off (m : Mem α) (o : ℕ) (c : Coord) (v : α) : SameOff (fun o' => o' = o) m (m.wr (.obj o c) v) := by
  intro o' ho
  refine ⟨fun c' => ?_, rfl⟩
  simp only [Mem.wr]
  rw [if_neg]
  intro e
  injection e with e1 e2
  exact ho e1

variable [FeOps α]

/-- The objects that the loop writes. -/
def LoopSet (pre zr ai i k o : ℕ) : Prop :=
  o = ai ∨ (pre + i ≤ o ∧ o < pre + i + k) ∨ (zr + i ≤ o ∧ o < zr + i + k)

theorem oddMultiplesLoopM_ok (pre zr ai dge n : ℕ) (hpz : pre + n ≤ zr ∨ zr + n ≤ pre)
    (h1 : ai < pre ∨ pre + n ≤ ai) (h2 : ai < zr ∨ zr + n ≤ ai)
    (h3 : dge < pre ∨ pre + n ≤ dge) (h4 : dge < zr ∨ zr + n ≤ dge) (h5 : ai ≠ dge) (k : ℕ) :
    ∀ (i : ℕ) (m : Mem α), i + k ≤ n →
      (∀ j, j < k → ((fun g => (gejAddGeVar g (m.ge dge)).1)^[j] (m.gej ai)).infinity = false) →
      Ends (oddMultiplesLoopM pre zr ai dge i k m) fun m' =>
        (m'.ges (pre + i) k).zip (m'.xs (zr + i) k) = (oddMultiplesLoop (m.ge dge) k (m.gej ai)).1 ∧
        m'.gej ai = (oddMultiplesLoop (m.ge dge) k (m.gej ai)).2 ∧
        SameOff (LoopSet pre zr ai i k) m m' := by
  induction k with
  | zero =>
    intro i m _ _
    simp only [oddMultiplesLoopM, Ends_some]
    exact ⟨rfl, rfl, fun _ _ => ⟨fun _ => rfl, rfl⟩⟩
  | succ k ih =>
    intro i m hk hinf
    refine Ends.bind (P := fun m1 => m1.ge (pre + i) = geSetXY (gejAddGeVar (m.gej ai) (m.ge dge)).1.x
        (gejAddGeVar (m.gej ai) (m.ge dge)).1.y ∧
      m1.fe (px (zr + i)) = (gejAddGeVar (m.gej ai) (m.ge dge)).2.getD (setInt 0) ∧
      m1.gej ai = (gejAddGeVar (m.gej ai) (m.ge dge)).1 ∧
      SameOff (fun o => o = ai ∨ o = pre + i ∨ o = zr + i) m m1) ?_ fun m1 ⟨g1, g2, g3, s1⟩ => ?_
    · refine Ends_cons (gejAddGeVarM_ok ai ai dge (some (px (zr + i))) (fun q hq => ?_) m)
        fun m1 ⟨e1, e2, e3⟩ => Ends_one ?_
      · simp only [Option.mem_def, Option.some.injEq] at hq
        exact ⟨zr + i, .x, hq.symm, by simp; omega⟩
      · refine (geSetXYM_ok (pre + i) (px ai) (py ai) (by simp) m1).mono fun m2 ⟨f1, f2⟩ => ⟨?_, ?_, ?_, ?_⟩
        · rw [f1, ← e1]
          rfl
        · rw [f2.1.1 (zr + i) .x (by omega) (by simp), e2 _ rfl]
          have hi : (m.gej ai).infinity = false := hinf 0 (by omega)
          have hsome : (gejAddGeVar (m.gej ai) (m.ge dge)).2 ≠ none := by
            have e : (m.gej ai).infinity = m.inf ai := rfl
            rw [e] at hi
            simp only [gejAddGeVar, Mem.gej, Mem.ge, hi, Bool.false_eq_true, if_false]
            split_ifs <;> simp [gejDoubleVar, hi]
          cases h : (gejAddGeVar (m.gej ai) (m.ge dge)).2 with
          | none => exact absurd h hsome
          | some v => rfl
        · rw [f2.1.gej (by omega), e1]
        · refine (e3.off.mono ?_).trans (f2.1.off.mono ?_)
          · rintro o (h | ⟨c, h⟩)
            · exact Or.inl h
            · simp only [Option.some.injEq] at h
              injection h with h h'
              exact Or.inr (Or.inr h.symm)
          · rintro o (h | ⟨c, h⟩)
            · exact Or.inr (Or.inl h)
            · cases h
    · have hd1 : m1.ge dge = m.ge dge := s1.ge (by omega)
      refine (ih (i + 1) m1 (by omega) fun j hj => ?_).mono fun m' ⟨q1, q2, q3⟩ => ?_
      · rw [hd1, g3]
        exact hinf (j + 1) (by omega)
      · rw [hd1, g3] at q1 q2
        refine ⟨?_, ?_, (s1.mono ?_).trans (q3.mono ?_)⟩
        · rw [ges_succ, xs_succ, List.zip_cons_cons, show pre + i + 1 = pre + (i + 1) by omega,
            show zr + i + 1 = zr + (i + 1) by omega, q1, q3.ge (by unfold LoopSet; omega),
            (q3 (zr + i) (by unfold LoopSet; omega)).1, g1, g2]
          rfl
        · rw [q2]
          rfl
        · unfold LoopSet; intro o; omega
        · unfold LoopSet; intro o; omega

theorem oddMultiplesTableM_ok (n pre zr zo : ℕ) (zc : Coord) (a d ai dge : ℕ) (hn : 1 ≤ n)
    (hpz : pre + n ≤ zr ∨ zr + n ≤ pre)
    (hout : ∀ o ∈ [a, d, ai, dge, zo], (o < pre ∨ pre + n ≤ o) ∧ (o < zr ∨ zr + n ≤ o))
    (hd : [a, d, ai, dge].Nodup) (hz : zo ∉ [d, ai, dge]) (m : Mem α)
    (hinf : ∀ j, j < n - 1 → ((fun g => (gejAddGeVar g (geSetXY (gejDoubleVar (m.gej a)).1.x
        (gejDoubleVar (m.gej a)).1.y)).1)^[j]
      { gejSetGe (geSetGejZinv (m.gej a) (gejDoubleVar (m.gej a)).1.z) with z := (m.gej a).z }).infinity
        = false) :
    Ends (oddMultiplesTableM n pre zr (.obj zo zc) a d ai dge m) fun m' =>
      (m'.ges pre n).zip (m'.xs zr n) = (oddMultiplesTable n (m.gej a)).1 ∧
      m'.fe (.obj zo zc) = (oddMultiplesTable n (m.gej a)).2 ∧
      ∀ o c, ¬ (o ∈ [d, ai, dge] ∨ (pre ≤ o ∧ o < pre + n) ∨ (zr ≤ o ∧ o < zr + n)) →
        FePtr.obj o c ≠ .obj zo zc → m'.fe (.obj o c) = m.fe (.obj o c) ∧ m'.inf o = m.inf o := by
  simp only [List.mem_cons, List.not_mem_nil, or_false, forall_eq_or_imp, forall_eq, List.nodup_cons,
    not_or, List.nodup_nil, not_false_eq_true, and_true] at hout hd hz
  obtain ⟨oa, od, oai, odge, ozo⟩ := hout
  obtain ⟨⟨a1, a2, a3⟩, ⟨d1, d2⟩, i1⟩ := hd
  obtain ⟨z1, z2, z3⟩ := hz
  obtain ⟨n, rfl⟩ : ∃ k, n = k + 1 := ⟨n - 1, by omega⟩
  let S : ℕ → Prop := fun o => o ∈ [d, ai, dge] ∨ (pre ≤ o ∧ o < pre + (n + 1)) ∨ (zr ≤ o ∧ o < zr + (n + 1))
  have hS : ∀ o, o = d ∨ o = ai ∨ o = dge ∨ o = pre ∨ o = zr → S o := by
    intro o ho
    simp only [S, List.mem_cons, List.not_mem_nil, or_false]
    omega
  set D := (gejDoubleVar (m.gej a)).1
  unfold oddMultiplesTableM
  refine Ends_cons (gejDoubleVarM_ok d a none (by simp) m) fun m1 ⟨e1, _, s1⟩ => ?_
  refine Ends_cons (geSetXYM_ok dge (px d) (py d) (by simp) m1) fun m2 ⟨e2, s2⟩ => ?_
  refine Ends_cons (geSetGejZinvM_ok pre a d .z m2) fun m3 ⟨e3, s3⟩ => ?_
  refine Ends_cons (gejSetGeM_ok ai pre m3) fun m4 ⟨e4, s4⟩ => ?_
  refine Ends_cons (P := fun m5 => m5 = m4.wr (pz ai) (m4.fe (pz a))) (by simp [feCopy]) ?_
  intro m5 e5
  refine Ends_cons (P := fun m6 => m6 = m5.wr (px zr) (m5.fe (pz d))) (by simp [feCopy]) ?_
  intro m6 e6
  have s5 : SameOff (fun o => o = ai) m4 m5 := e5 ▸ wr_off m4 ai .z _
  have s6 : SameOff (fun o => o = zr) m5 m6 := e6 ▸ wr_off m5 zr .x _
  have hd1 : m1.gej d = D := e1
  have hdz : ∀ mm : Mem α, mm.gej d = D → mm.fe (pz d) = D.z := fun mm h => congrArg Gej.z h
  have hd2 : m2.gej d = D := by rw [s2.1.gej (by omega), hd1]
  have hd3 : m3.gej d = D := by rw [s3.1.gej (by omega), hd2]
  have hd4 : m4.gej d = D := by rw [s4.gej (by omega), hd3]
  have hd5 : m5.gej d = D := by rw [s5.gej (by omega), hd4]
  have hd6 : m6.gej d = D := by rw [s6.gej (by omega), hd5]
  have ha1 : m1.gej a = m.gej a := s1.gej (by omega)
  have ha2 : m2.gej a = m.gej a := by rw [s2.1.gej (by omega), ha1]
  have ha3 : m3.gej a = m.gej a := by rw [s3.1.gej (by omega), ha2]
  have ha4 : m4.gej a = m.gej a := by rw [s4.gej (by omega), ha3]
  have hg2 : m2.ge dge = geSetXY D.x D.y := by
    rw [e2, show m1.fe (px d) = D.x from congrArg Gej.x hd1, show m1.fe (py d) = D.y from congrArg Gej.y hd1]
  have hg6 : m6.ge dge = geSetXY D.x D.y := by
    rw [s6.ge (by omega), s5.ge (by omega), s4.ge (by omega), s3.1.ge (by omega), hg2]
  have hp3 : m3.ge pre = geSetGejZinv (m.gej a) D.z := by rw [e3, ha2, hdz m2 hd2]
  have hp6 : m6.ge pre = geSetGejZinv (m.gej a) D.z := by
    rw [s6.ge (by omega), s5.ge (by omega), s4.ge (by omega), hp3]
  have hi5 : m5.gej ai = { gejSetGe (geSetGejZinv (m.gej a) D.z) with z := (m.gej a).z } := by
    have h := e4
    rw [hp3] at h
    have hz : m4.fe (pz a) = (m.gej a).z := congrArg Gej.z ha4
    rw [e5, hz]
    simp only [Mem.gej, Mem.wr, FePtr.obj.injEq, reduceCtorEq, and_false, if_false, and_self, if_true]
    rw [show m4.fe (px ai) = _ from congrArg Gej.x h, show m4.fe (py ai) = _ from congrArg Gej.y h,
      show m4.inf ai = _ from congrArg Gej.infinity h]
    rfl
  have hi6 : m6.gej ai = { gejSetGe (geSetGejZinv (m.gej a) D.z) with z := (m.gej a).z } := by
    rw [s6.gej (by omega), hi5]
  have hz6 : m6.fe (px zr) = D.z := by rw [e6, wr_self, hdz m5 hd5]
  have s06 : SameOff S m m6 := by
    refine (((((s1.off.mono ?_).trans (s2.1.off.mono ?_)).trans (s3.1.off.mono ?_)).trans
      (s4.off.mono ?_)).trans (s5.mono ?_)).trans (s6.mono ?_)
    · rintro o (h | ⟨c, h⟩)
      · exact hS o (by omega)
      · cases h
    · rintro o (h | ⟨c, h⟩)
      · exact hS o (by omega)
      · cases h
    · rintro o (h | ⟨c, h⟩)
      · exact hS o (by omega)
      · cases h
    · rintro o (h | ⟨c, h⟩)
      · exact hS o (by omega)
      · cases h
    · intro o h
      exact hS o (by omega)
    · intro o h
      exact hS o (by omega)
  refine Ends_cons (oddMultiplesLoopM_ok pre zr ai dge (n + 1) hpz oai.1 oai.2 odge.1 odge.2 i1 (n + 1 - 1) 1
    m6 (by omega) fun j hj => ?_) fun m7 ⟨q1, q2, q3⟩ => Ends_one ?_
  · rw [hg6, hi6]
    exact hinf j hj
  rw [hg6, hi6] at q1 q2
  rw [Nat.add_sub_cancel] at q1 q2 q3
  have hd7 : m7.gej d = D := by rw [q3.gej (by unfold LoopSet; omega), hd6]
  rw [feMul_ok _ _ _ (by simp; omega) (by simp; omega), Ends_some]
  set L := oddMultiplesLoop (geSetXY D.x D.y) n
    { gejSetGe (geSetGejZinv (m.gej a) D.z) with z := (m.gej a).z }
  have hv : mul (m7.fe (pz ai)) (m7.fe (pz d)) = mul L.2.z D.z := by
    rw [hdz m7 hd7, show m7.fe (pz ai) = L.2.z from congrArg Gej.z q2]
  rw [hv]
  have s8 := wr_off m7 zo zc (mul L.2.z D.z)
  refine ⟨?_, ?_, ?_⟩
  · have c1 : (m7.wr (.obj zo zc) (mul L.2.z D.z)).ges pre (n + 1) = m7.ges pre (n + 1) :=
      ges_congr fun o _ _ => s8.ge (by omega)
    have c2 : (m7.wr (.obj zo zc) (mul L.2.z D.z)).xs zr (n + 1) = m7.xs zr (n + 1) :=
      xs_congr fun o _ _ => (s8 o (by omega)).1 .x
    rw [c1, c2, ges_succ, xs_succ, List.zip_cons_cons, q1, q3.ge (by unfold LoopSet; omega), hp6,
      (q3 zr (by unfold LoopSet; omega)).1, hz6]
    rfl
  · rw [wr_self]
    rfl
  · intro o c ho hne
    have s07 : SameOff S m m7 := s06.trans (q3.mono fun o ho => by
      simp only [S, List.mem_cons, List.not_mem_nil, or_false]
      unfold LoopSet at ho
      omega)
    have := s07 o ho
    refine ⟨?_, this.2⟩
    simp only [Mem.wr]
    rw [if_neg hne, this.1]

end Secp.Model.Mem
