import Verif.Spec.Inplace
import Verif.Model.GroupX

/-!
# Runs of the group code on memory

Every function of `Model/Inplace.lean`, for every choice of the pointers: it does not run into undefined
behaviour, the output object holds what the value-passing model computes from the inputs, and nothing else
changes.
-/

namespace Secp.Model.Mem

open FeOps

variable {α : Type}

@[simp] theorem Ends_some (m : Mem α) (P : Mem α → Prop) : Ends (some m) P ↔ P m := by simp [Ends]

theorem Ends.mono {s : Option (Mem α)} {P Q : Mem α → Prop} (h : Ends s P) (hpq : ∀ m, P m → Q m) :
    Ends s Q := by
  obtain ⟨m, h, hm⟩ := h
  exact ⟨m, h, hpq m hm⟩

theorem Ends.bind {s : Option (Mem α)} {f : Stmt α} {P Q : Mem α → Prop} (h : Ends s P)
    (hf : ∀ m, P m → Ends (f m) Q) : Ends (s.bind f) Q := by
  obtain ⟨m, rfl, hm⟩ := h
  exact hf m hm

theorem SameBut.gej {r : ℕ} {m m' : Mem α} (h : SameBut r none m m') {o : ℕ} (ho : o ≠ r) :
    m'.gej o = m.gej o := by
  simp [Mem.gej, h.1 o _ ho, h.2 o ho]

theorem SameBut.ge {r : ℕ} {m m' : Mem α} (h : SameBut r none m m') {o : ℕ} (ho : o ≠ r) :
    m'.ge o = m.ge o := by
  simp [Mem.ge, h.1 o _ ho, h.2 o ho]

variable [FeOps α]

macro "mem_simp" "[" ls:Lean.Parser.Tactic.simpLemma,* "]" : tactic =>
  `(tactic| simp +contextual (maxSteps := 4000000) [run, setInf, feMul, feSqr, feMulInt, feHalf, feNegate, feAdd, feSetInt,
      feCopy, feNormalizeWeak, feInv, feInvVar, feCmov, feCmovOne, ite', ifPtr, Mem.wr, Mem.wrInf, Mem.gej,
      Mem.ge, SameBut, SameButGe, $ls,*])

theorem geSetGejZinvM_ok (r a : ℕ) (o : ℕ) (c : Coord) (m : Mem α) :
    Ends (geSetGejZinvM r a (.obj o c) m) fun m' =>
      m'.ge r = geSetGejZinv (m.gej a) (m.fe (.obj o c)) ∧ SameButGe r m m' := by
  rcases eq_or_ne r a with rfl | h
  · mem_simp [geSetGejZinvM, geSetGejZinv]
  · mem_simp [geSetGejZinvM, geSetGejZinv, h, h.symm]

theorem geSetGeZinvM_ok (r a : ℕ) (zi : FePtr) (h0 : zi ≠ .loc 0) (h1 : zi ≠ .loc 1) (m : Mem α) :
    Ends (geSetGeZinvM r a zi m) fun m' =>
      m'.ge r = geSetGeZinv (m.ge a) (m.fe zi) ∧ SameButGe r m m' ∧
      ∀ k, k ≠ 0 → k ≠ 1 → m'.fe (.loc k) = m.fe (.loc k) := by
  rcases eq_or_ne r a with rfl | h
  · mem_simp [geSetGeZinvM, geSetGeZinv, h0, h1, h0.symm, h1.symm]
  · mem_simp [geSetGeZinvM, geSetGeZinv, h, h.symm, h0, h1, h0.symm, h1.symm]

theorem geSetXYM_ok (r : ℕ) (x y : FePtr) (hy : y ≠ px r) (m : Mem α) :
    Ends (geSetXYM r x y m) fun m' => m'.ge r = geSetXY (m.fe x) (m.fe y) ∧ SameButGe r m m' := by
  mem_simp [geSetXYM, geSetXY, hy]

theorem geNegM_ok (r a : ℕ) (m : Mem α) :
    Ends (geNegM r a m) fun m' => m'.ge r = geNeg (m.ge a) ∧ SameButGe r m m' := by
  rcases eq_or_ne r a with rfl | h
  · mem_simp [geNegM, geNeg, geCopy]
  · mem_simp [geNegM, geNeg, geCopy, h, h.symm]

theorem geSetGejM_ok (r a : ℕ) (h : r ≠ a) (m : Mem α) :
    Ends (geSetGejM r a m) fun m' => m'.ge r = geSetGej (m.gej a) ∧
      m'.gej a = ⟨(geSetGej (m.gej a)).x, (geSetGej (m.gej a)).y, setInt 1, m.inf a⟩ ∧
      m'.fe (pz r) = m.fe (pz r) ∧ ∀ o, o ≠ r → o ≠ a → m'.gej o = m.gej o := by
  mem_simp [geSetGejM, geSetGej, h, h.symm]

theorem geSetGejVarM_ok (r a : ℕ) (h : r ≠ a) (m : Mem α) :
    Ends (geSetGejVarM r a m) fun m' => m'.ge r = geSetGejVar (m.gej a) ∧
      (m'.gej a = if m.inf a then m.gej a else
        ⟨(geSetGejVar (m.gej a)).x, (geSetGejVar (m.gej a)).y, setInt 1, false⟩) ∧
      m'.fe (pz r) = m.fe (pz r) ∧ ∀ o, o ≠ r → o ≠ a → m'.gej o = m.gej o := by
  by_cases hi : m.inf a
  · mem_simp [geSetGejVarM, geSetGejVar, geSetXYM, geSetXY, geSetInfinityM, geInfinity, hi, h, h.symm]
  · mem_simp [geSetGejVarM, geSetGejVar, geSetXYM, geSetXY, geSetInfinityM, geInfinity, hi, h, h.symm]

theorem gejSetGeM_ok (r a : ℕ) (m : Mem α) :
    Ends (gejSetGeM r a m) fun m' => m'.gej r = gejSetGe (m.ge a) ∧ SameBut r none m m' := by
  rcases eq_or_ne r a with rfl | h
  · mem_simp [gejSetGeM, gejSetGe]
  · mem_simp [gejSetGeM, gejSetGe, h, h.symm]

theorem gejNegM_ok (r a : ℕ) (m : Mem α) :
    Ends (gejNegM r a m) fun m' => m'.gej r = gejNeg (m.gej a) ∧ SameBut r none m m' := by
  rcases eq_or_ne r a with rfl | h
  · mem_simp [gejNegM, gejNeg]
  · mem_simp [gejNegM, gejNeg, h, h.symm]

theorem gejDoubleM_ok (r a : ℕ) (m : Mem α) :
    Ends (gejDoubleM r a m) fun m' => m'.gej r = gejDouble (m.gej a) ∧ SameBut r none m m' := by
  rcases eq_or_ne r a with rfl | h
  · mem_simp [gejDoubleM, gejDouble]
  · mem_simp [gejDoubleM, gejDouble, h, h.symm]

theorem gejRescaleM_ok (r o : ℕ) (c : Coord) (h : o ≠ r) (m : Mem α) :
    Ends (gejRescaleM r (.obj o c) m) fun m' =>
      m'.gej r = gejRescale (m.gej r) (m.fe (.obj o c)) ∧ SameBut r none m m' := by
  mem_simp [gejRescaleM, gejRescale, h, h.symm]

theorem gejCmovM_ok (r a : ℕ) (flag : Bool) (m : Mem α) :
    Ends (gejCmovM r a flag m) fun m' =>
      m'.gej r = gejCmov (m.gej r) (m.gej a) flag ∧ SameBut r none m m' := by
  rcases eq_or_ne r a with rfl | h
  · mem_simp [gejCmovM, gejCmov]
  · mem_simp [gejCmovM, gejCmov, h, h.symm]

theorem gejSetInfinityM_ok (r : ℕ) (m : Mem α) :
    Ends (gejSetInfinityM r m) fun m' => m'.gej r = gejInfinity ∧ SameBut r none m m' := by
  mem_simp [gejSetInfinityM, gejInfinity]

theorem gejCopy_ok (r a : ℕ) (m : Mem α) :
    Ends (gejCopy r a m) fun m' => m'.gej r = m.gej a ∧ SameBut r none m m' := by
  rcases eq_or_ne r a with rfl | h
  · mem_simp [gejCopy]
  · mem_simp [gejCopy, h, h.symm]

omit [FeOps α] in
theorem Ends_nil {m : Mem α} {P : Mem α → Prop} (h : P m) : Ends (run [] m) P := ⟨m, rfl, h⟩

omit [FeOps α] in
theorem Ends_cons {s : Stmt α} {l : List (Stmt α)} {m : Mem α} {P Q : Mem α → Prop} (h : Ends (s m) P)
    (hl : ∀ m', P m' → Ends (run l m') Q) : Ends (run (s :: l) m) Q :=
  Ends.bind h hl

omit [FeOps α] in
theorem Ends_one {s : Stmt α} {m : Mem α} {P : Mem α → Prop} (h : Ends (s m) P) :
    Ends (run [s] m) P := Ends_cons h fun _ => Ends_nil

omit [FeOps α] in
theorem Ends_ite {c : Mem α → Bool} {s t : List (Stmt α)} {m : Mem α} {P : Mem α → Prop}
    (hs : c m = true → Ends (run s m) P) (ht : c m = false → Ends (run t m) P) : Ends (ite' c s t m) P := by
  unfold ite'
  cases h : c m
  · simpa using ht h
  · simpa using hs h

omit [FeOps α] in
/-- A statement that writes through the optional pointer. -/
theorem ifPtr_ok (rzr : Option FePtr) (s : FePtr → List (Stmt α)) (v : FePtr → Mem α → α) (m : Mem α)
    (h : ∀ q, run (s q) m = some (m.wr q (v q m))) :
    Ends (ifPtr rzr s m) fun m' => (∀ q ∈ rzr, m'.fe q = v q m) ∧ (∀ q, rzr ≠ some q → m'.fe q = m.fe q) ∧
      m'.inf = m.inf := by
  rcases rzr with _ | q
  · simp [ifPtr]
  · simp only [ifPtr, h, Ends_some, Mem.wr]
    refine ⟨?_, ?_, trivial⟩
    · intro q' hq
      simp at hq
      simp [hq]
    · intro q' hq
      rw [if_neg]
      rintro rfl
      exact hq rfl

theorem gejDoubleVarM_ok (r a : ℕ) (rzr : Option FePtr) (hz : ∀ q ∈ rzr, Apart q [r, a]) (m : Mem α) :
    Ends (gejDoubleVarM r a rzr m) fun m' => m'.gej r = (gejDoubleVar (m.gej a)).1 ∧
      (∀ q ∈ rzr, m'.fe q = (gejDoubleVar (m.gej a)).2.getD (m.fe q)) ∧ SameBut r rzr m m' := by
  have hne : ∀ o c, o = r ∨ o = a → rzr ≠ some (.obj o c) := by
    rintro o c ho rfl
    obtain ⟨o', c', h, hn⟩ := hz _ rfl
    cases h
    simp at hn
    tauto
  refine Ends_ite (fun hi => ?_) (fun hi => ?_)
  · have hd : gejDoubleVar (m.gej a) = (gejInfinity, some (setInt 1)) := by
      simp [gejDoubleVar, Mem.gej, hi]
    rw [hd]
    refine Ends_cons (gejSetInfinityM_ok r m) fun m1 ⟨h1, h2⟩ => Ends_one ?_
    refine (ifPtr_ok rzr _ (fun _ _ => setInt 1) m1 fun q => rfl).mono fun m2 ⟨g1, g2, g3⟩ => ⟨?_, ?_, ?_⟩
    · simpa [Mem.gej, g3, g2 _ (hne r _ (Or.inl rfl))] using h1
    · simpa using g1
    · refine ⟨fun o c ho hq => ?_, fun o ho => ?_⟩
      · rw [g2 _ hq, h2.1 o c ho (by simp)]
      · rw [g3, h2.2 o ho]
  · have hd : gejDoubleVar (m.gej a) = (gejDouble (m.gej a), some (normalizeWeak (m.fe (py a)))) := by
      simp [gejDoubleVar, Mem.gej, hi]
    rw [hd]
    refine Ends_cons (ifPtr_ok rzr _ (fun _ m => normalizeWeak (m.fe (py a))) m fun q => ?_)
      fun m1 ⟨g1, g2, g3⟩ => Ends_one ?_
    · simp [run, feCopy, feNormalizeWeak, Mem.wr]
      funext q'
      split <;> rfl
    · refine (gejDoubleM_ok r a m1).mono fun m2 ⟨h1, h2⟩ => ⟨?_, ?_, ?_⟩
      · rw [h1]
        congr 1
        simp [Mem.gej, g3, g2 _ (hne a _ (Or.inr rfl))]
      · intro q hq
        obtain ⟨o, c, rfl, hn⟩ := hz q hq
        rw [h2.1 o c (by simp at hn; tauto) (by simp), g1 _ hq]
        rfl
      · refine ⟨fun o c ho hq => ?_, fun o ho => ?_⟩
        · rw [h2.1 o c ho (by simp), g2 _ hq]
        · rw [h2.2 o ho, g3]

omit [FeOps α] in
theorem run_append (l l' : List (Stmt α)) (m : Mem α) : run (l ++ l') m = (run l m).bind (run l') := by
  induction l generalizing m with
  | nil => rfl
  | cons s l ih =>
    rw [List.cons_append, run, run]
    cases h : s m with
    | none => rfl
    | some m' => exact ih m'

omit [FeOps α] in
theorem Ends_append {l l' : List (Stmt α)} {m : Mem α} {P Q : Mem α → Prop} (h : Ends (run l m) P)
    (hl : ∀ m', P m' → Ends (run l' m') Q) : Ends (run (l ++ l') m) Q := by
  rw [run_append]
  exact Ends.bind h hl

/-- Only local variables differ. -/
def SameObj (m m' : Mem α) : Prop := (∀ o c, m'.fe (.obj o c) = m.fe (.obj o c)) ∧ m'.inf = m.inf

omit [FeOps α] in
theorem SameObj.gej {m m' : Mem α} (h : SameObj m m') (o : ℕ) : m'.gej o = m.gej o := by
  simp [Mem.gej, h.1, h.2]

omit [FeOps α] in
theorem SameObj.trans {r : ℕ} {w : Option FePtr} {m m' m'' : Mem α} (h : SameObj m m')
    (h' : SameBut r w m' m'') : SameBut r w m m'' :=
  ⟨fun o c ho hq => by rw [h'.1 o c ho hq, h.1], fun o ho => by rw [h'.2 o ho, h.2]⟩

/-- The end of the three variable-time additions as a function of `u1`, `s1`, `h` and `i`. -/
def tailX (u1 h i : α) : α :=
  add (add (add (sqr i) (mul (negate (sqr h) 1) h)) (mul u1 (negate (sqr h) 1))) (mul u1 (negate (sqr h) 1))

def tailY (u1 s1 h i : α) : α :=
  add (mul (add (mul u1 (negate (sqr h) 1)) (tailX u1 h i)) i) (mul (mul (negate (sqr h) 1) h) s1)

theorem addTail_ok (r : ℕ) (m : Mem α) :
    Ends (run (addTail r) m) fun m' => m'.gej r =
      ⟨tailX (m.fe (.loc 2)) (m.fe (.loc 6)) (m.fe (.loc 7)),
        tailY (m.fe (.loc 2)) (m.fe (.loc 4)) (m.fe (.loc 6)) (m.fe (.loc 7)), m.fe (pz r), m.inf r⟩ ∧
      SameBut r none m m' := by
  mem_simp [addTail, tailX, tailY]

theorem addVar₁_ok (a b : ℕ) (m : Mem α) : Ends (run (addVar₁ a b) m) fun m' => SameObj m m' ∧
    m'.fe (.loc 2) = mul (m.fe (px a)) (sqr (m.fe (pz b))) ∧
    m'.fe (.loc 4) = mul (mul (m.fe (py a)) (sqr (m.fe (pz b)))) (m.fe (pz b)) ∧
    m'.fe (.loc 6) = add (negate (mul (m.fe (px a)) (sqr (m.fe (pz b)))) 1)
      (mul (m.fe (px b)) (sqr (m.fe (pz a)))) ∧
    m'.fe (.loc 7) = add (negate (mul (mul (m.fe (py b)) (sqr (m.fe (pz a)))) (m.fe (pz a))) 1)
      (mul (mul (m.fe (py a)) (sqr (m.fe (pz b)))) (m.fe (pz b))) := by
  mem_simp [addVar₁, SameObj]

theorem addGeVar₁_ok (a b : ℕ) (m : Mem α) : Ends (run (addGeVar₁ a b) m) fun m' => SameObj m m' ∧
    m'.fe (.loc 2) = m.fe (px a) ∧
    m'.fe (.loc 4) = m.fe (py a) ∧
    m'.fe (.loc 6) = add (negate (m.fe (px a)) gejXMag) (mul (m.fe (px b)) (sqr (m.fe (pz a)))) ∧
    m'.fe (.loc 7) = add (negate (mul (mul (m.fe (py b)) (sqr (m.fe (pz a)))) (m.fe (pz a))) 1)
      (m.fe (py a)) := by
  mem_simp [addGeVar₁, SameObj]

theorem addZinvVar₁_ok (a b o : ℕ) (c : Coord) (h : pz a ≠ .obj o c) (m : Mem α) :
    Ends (run (addZinvVar₁ a b (.obj o c)) m) fun m' => SameObj m m' ∧
    m'.fe (.loc 2) = m.fe (px a) ∧
    m'.fe (.loc 4) = m.fe (py a) ∧
    m'.fe (.loc 6) = add (negate (m.fe (px a)) gejXMag)
      (mul (m.fe (px b)) (sqr (mul (m.fe (pz a)) (m.fe (.obj o c))))) ∧
    m'.fe (.loc 7) = add (negate (mul (mul (m.fe (py b)) (sqr (mul (m.fe (pz a)) (m.fe (.obj o c)))))
      (mul (m.fe (pz a)) (m.fe (.obj o c)))) 1) (m.fe (py a)) := by
  have h' : ¬ (a = o ∧ Coord.z = c) := fun hh => h (by rw [hh.1, ← hh.2])
  mem_simp [addZinvVar₁, SameObj, h']

omit [FeOps α] in
theorem apart_ne {rzr : Option FePtr} {os : List ℕ} (hz : ∀ q ∈ rzr, Apart q os) {o : ℕ} (ho : o ∈ os)
    (c : Coord) : rzr ≠ some (.obj o c) := by
  rintro rfl
  obtain ⟨o', c', h, hn⟩ := hz _ rfl
  cases h
  exact hn ho

omit [FeOps α] in
theorem apart_loc {rzr : Option FePtr} {os : List ℕ} (hz : ∀ q ∈ rzr, Apart q os) (k : ℕ) :
    rzr ≠ some (.loc k) := by
  rintro rfl
  obtain ⟨o', c', h, hn⟩ := hz _ rfl
  cases h

/-- The tests on `h` and `i` and what follows them, in the three variable-time additions. -/
theorem branch_ok (r a : ℕ) (rzr : Option FePtr) (hz : ∀ q ∈ rzr, Apart q [r, a]) (mid : List (Stmt α))
    (m0 m : Mem α) (h0 : SameObj m0 m) (z3 t3 : α)
    (hmid : Ends (run mid m) fun m1 => m1.fe (pz r) = z3 ∧ m1.inf r = false ∧
      m1.fe (.loc 2) = m.fe (.loc 2) ∧ m1.fe (.loc 4) = m.fe (.loc 4) ∧ m1.fe (.loc 6) = m.fe (.loc 6) ∧
      m1.fe (.loc 7) = m.fe (.loc 7) ∧ (∀ q ∈ rzr, m1.fe q = t3) ∧ SameBut r rzr m m1)
    (res : Gej α × Option α)
    (hres : res = if normalizesToZero (m.fe (.loc 6)) then
        if normalizesToZero (m.fe (.loc 7)) then gejDoubleVar (m0.gej a) else (gejInfinity, some (setInt 0))
      else (⟨tailX (m.fe (.loc 2)) (m.fe (.loc 6)) (m.fe (.loc 7)),
        tailY (m.fe (.loc 2)) (m.fe (.loc 4)) (m.fe (.loc 6)) (m.fe (.loc 7)), z3, false⟩, some t3)) :
    Ends (ite' (fun m => normalizesToZero (m.fe (.loc 6)))
      [ite' (fun m => normalizesToZero (m.fe (.loc 7)))
        [gejDoubleVarM r a rzr]
        [ifPtr rzr fun q => [feSetInt q 0], gejSetInfinityM r]] (mid ++ addTail r) m) fun m' =>
      m'.gej r = res.1 ∧ (∀ q ∈ rzr, m'.fe q = res.2.getD (m0.fe q)) ∧ SameBut r rzr m0 m' := by
  refine Ends_ite (fun h6 => Ends_one (Ends_ite (fun h7 => Ends_one ?_) (fun h7 => ?_))) (fun h6 => ?_)
  · rw [hres, if_pos h6, if_pos h7]
    refine (gejDoubleVarM_ok r a rzr hz m).mono fun m' ⟨h1, h2, h3⟩ => ⟨?_, ?_, h0.trans h3⟩
    · rw [h1, h0.gej]
    · intro q hq
      obtain ⟨o, c, rfl, hn⟩ := hz q hq
      rw [h2 _ hq, h0.gej, h0.1]
  · rw [hres, if_pos h6, if_neg (by simp [h7])]
    refine Ends_cons (ifPtr_ok rzr _ (fun _ _ => setInt 0) m fun q => rfl) fun m1 ⟨g1, g2, g3⟩ => Ends_one ?_
    refine (gejSetInfinityM_ok r m1).mono fun m2 ⟨h1, h2⟩ => ⟨h1, ?_, ?_⟩
    · intro q hq
      obtain ⟨o, c, rfl, hn⟩ := hz q hq
      rw [h2.1 o c (by simp at hn; tauto) (by simp), g1 _ hq]
      rfl
    · refine h0.trans ⟨fun o c ho hq => ?_, fun o ho => ?_⟩
      · rw [h2.1 o c ho (by simp), g2 _ hq]
      · rw [h2.2 o ho, g3]
  · rw [hres, if_neg (by simp [h6])]
    refine Ends_append hmid fun m1 ⟨h1, h2, h3, h4, h5, h6, h7, h8⟩ => ?_
    refine (addTail_ok r m1).mono fun m2 ⟨g1, g2⟩ => ⟨?_, ?_, ?_⟩
    · rw [g1, h1, h2, h3, h4, h5, h6]
    · intro q hq
      obtain ⟨o, c, rfl, hn⟩ := hz q hq
      rw [g2.1 o c (by simp at hn; tauto) (by simp), h7 _ hq]
      rfl
    · refine h0.trans ⟨fun o c ho hq => ?_, fun o ho => ?_⟩
      · rw [g2.1 o c ho (by simp), h8.1 o c ho hq]
      · rw [g2.2 o ho, h8.2 o ho]

/-- The branches that copy a point, after an optional `*rzr = 1`. -/
theorem infB_ok (r a b : ℕ) (rzr : Option FePtr) (hz : ∀ q ∈ rzr, Apart q [r, a, b]) (m : Mem α) :
    Ends (run [ifPtr rzr fun q => [feSetInt q 1], gejCopy r a] m) fun m' => m'.gej r = m.gej a ∧
      (∀ q ∈ rzr, m'.fe q = setInt 1) ∧ SameBut r rzr m m' := by
  refine Ends_cons (ifPtr_ok rzr _ (fun _ _ => setInt 1) m fun q => rfl) fun m1 ⟨g1, g2, g3⟩ => Ends_one ?_
  refine (gejCopy_ok r a m1).mono fun m2 ⟨h1, h2⟩ => ⟨?_, ?_, ?_⟩
  · rw [h1]
    simp [Mem.gej, g3, g2 _ (apart_ne hz (o := a) (by simp) _)]
  · intro q hq
    obtain ⟨o, c, rfl, hn⟩ := hz q hq
    rw [h2.1 o c (by simp at hn; tauto) (by simp), g1 _ hq]
  · refine ⟨fun o c ho hq => ?_, fun o ho => ?_⟩
    · rw [h2.1 o c ho (by simp), g2 _ hq]
    · rw [h2.2 o ho, g3]

theorem gejAddVarM_ok (r a b : ℕ) (rzr : Option FePtr) (hz : ∀ q ∈ rzr, Apart q [r, a, b]) (m : Mem α) :
    Ends (gejAddVarM r a b rzr m) fun m' => m'.gej r = (gejAddVar (m.gej a) (m.gej b)).1 ∧
      (∀ q ∈ rzr, m'.fe q = (gejAddVar (m.gej a) (m.gej b)).2.getD (m.fe q)) ∧ SameBut r rzr m m' := by
  have hz' : ∀ q ∈ rzr, Apart q [r, a] := fun q hq => by
    obtain ⟨o, c, h, hn⟩ := hz q hq
    exact ⟨o, c, h, by simp at hn ⊢; tauto⟩
  refine Ends_ite (fun ha => Ends_one ?_) (fun ha => Ends_one (Ends_ite (fun hb => ?_) (fun hb => ?_)))
  · have hd : gejAddVar (m.gej a) (m.gej b) = (m.gej b, none) := by simp [gejAddVar, Mem.gej, ha]
    rw [hd]
    refine (gejCopy_ok r b m).mono fun m' ⟨h1, h2⟩ => ⟨h1, ?_, fun o c ho _ => h2.1 o c ho (by simp), h2.2⟩
    intro q hq
    obtain ⟨o, c, rfl, hn⟩ := hz q hq
    rw [h2.1 o c (by simp at hn; tauto) (by simp)]
    rfl
  · have hd : gejAddVar (m.gej a) (m.gej b) = (m.gej a, some (setInt 1)) := by
      simp [gejAddVar, Mem.gej, ha, hb]
    rw [hd]
    exact infB_ok r a b rzr hz m
  · refine Ends_append (addVar₁_ok a b m) fun m1 ⟨h0, h2, h4, h6, h7⟩ => Ends_one ?_
    refine branch_ok r a rzr hz' _ m m1 h0 (mul (m.fe (pz a)) (mul (m1.fe (.loc 6)) (m.fe (pz b))))
      (mul (m1.fe (.loc 6)) (m.fe (pz b))) ?_ _ ?_
    · refine Ends_cons (P := fun m2 => m2 = m1.wrInf r false) (by simp [setInf]) ?_
      rintro _ rfl
      refine Ends_cons (P := fun m2 => m2 = (m1.wrInf r false).wr (.loc 10)
        (mul (m1.fe (.loc 6)) (m.fe (pz b)))) (by simp [feMul, Mem.wrInf, h0.1]) ?_
      rintro _ rfl
      refine Ends_cons (ifPtr_ok rzr _ (fun _ m => m.fe (.loc 10)) _ fun q => rfl) fun m3 ⟨g1, g2, g3⟩ =>
        Ends_one ?_
      have e1 := g2 _ (apart_ne hz (o := a) (by simp) .z)
      have e2 := fun k => g2 _ (apart_loc hz k)
      simp only [Mem.wr, Mem.wrInf] at e1 e2 g1 g2 g3
      simp only [feMul]
      rw [if_neg (by simp), Ends_some]
      refine ⟨by simp [Mem.wr, e1, e2, h0.1], by simp [Mem.wr, g3], by simp [Mem.wr, e2], by simp [Mem.wr, e2],
        by simp [Mem.wr, e2], by simp [Mem.wr, e2], ?_, ?_, ?_⟩
      · intro q hq
        have hq' := apart_ne hz (o := r) (by simp) .z
        simp only [Mem.wr]
        rw [if_neg, g1 q hq]
        · simp
        · rintro rfl
          exact hq' hq
      · intro o c ho hq
        simp [Mem.wr, ho, g2 _ hq]
      · intro o ho
        simp [Mem.wr, g3, ho]
    · rw [h6, h7, h2, h4]
      simp [gejAddVar, Mem.gej, ha, hb, tailX, tailY]

theorem gejAddGeVarM_ok (r a b : ℕ) (rzr : Option FePtr) (hz : ∀ q ∈ rzr, Apart q [r, a, b]) (m : Mem α) :
    Ends (gejAddGeVarM r a b rzr m) fun m' => m'.gej r = (gejAddGeVar (m.gej a) (m.ge b)).1 ∧
      (∀ q ∈ rzr, m'.fe q = (gejAddGeVar (m.gej a) (m.ge b)).2.getD (m.fe q)) ∧ SameBut r rzr m m' := by
  have hz' : ∀ q ∈ rzr, Apart q [r, a] := fun q hq => by
    obtain ⟨o, c, h, hn⟩ := hz q hq
    exact ⟨o, c, h, by simp at hn ⊢; tauto⟩
  refine Ends_ite (fun ha => Ends_one ?_) (fun ha => Ends_one (Ends_ite (fun hb => ?_) (fun hb => ?_)))
  · have hd : gejAddGeVar (m.gej a) (m.ge b) = (gejSetGe (m.ge b), none) := by
      simp [gejAddGeVar, Mem.gej, ha]
    rw [hd]
    refine (gejSetGeM_ok r b m).mono fun m' ⟨h1, h2⟩ => ⟨h1, ?_, fun o c ho _ => h2.1 o c ho (by simp), h2.2⟩
    intro q hq
    obtain ⟨o, c, rfl, hn⟩ := hz q hq
    rw [h2.1 o c (by simp at hn; tauto) (by simp)]
    rfl
  · have hd : gejAddGeVar (m.gej a) (m.ge b) = (m.gej a, some (setInt 1)) := by
      simp [gejAddGeVar, Mem.gej, Mem.ge, ha, hb]
    rw [hd]
    exact infB_ok r a b rzr hz m
  · refine Ends_append (addGeVar₁_ok a b m) fun m1 ⟨h0, h2, h4, h6, h7⟩ => Ends_one ?_
    refine branch_ok r a rzr hz' _ m m1 h0 (mul (m.fe (pz a)) (m1.fe (.loc 6))) (m1.fe (.loc 6)) ?_ _ ?_
    · refine Ends_cons (P := fun m2 => m2 = m1.wrInf r false) (by simp [setInf]) ?_
      rintro _ rfl
      refine Ends_cons (ifPtr_ok rzr _ (fun _ m => m.fe (.loc 6)) _ fun q => rfl) fun m3 ⟨g1, g2, g3⟩ =>
        Ends_one ?_
      have e1 := g2 _ (apart_ne hz (o := a) (by simp) .z)
      have e2 := fun k => g2 _ (apart_loc hz k)
      simp only [Mem.wrInf] at e1 e2 g1 g2 g3
      simp only [feMul]
      rw [if_neg (by simp), Ends_some]
      refine ⟨by simp [Mem.wr, e1, e2, h0.1], by simp [Mem.wr, g3], by simp [Mem.wr, e2], by simp [Mem.wr, e2],
        by simp [Mem.wr, e2], by simp [Mem.wr, e2], ?_, ?_, ?_⟩
      · intro q hq
        have hq' := apart_ne hz (o := r) (by simp) .z
        simp only [Mem.wr]
        rw [if_neg, g1 q hq]
        rintro rfl
        exact hq' hq
      · intro o c ho hq
        simp [Mem.wr, ho, g2 _ hq]
      · intro o ho
        simp [Mem.wr, g3, ho]
    · rw [h6, h7, h2, h4]
      simp [gejAddGeVar, Mem.gej, Mem.ge, ha, hb, tailX, tailY]

theorem gejAddZinvVarM_ok (r a b o : ℕ) (c : Coord) (hz : pz a ≠ .obj o c) (m : Mem α) :
    Ends (gejAddZinvVarM r a b (.obj o c) m) fun m' =>
      m'.gej r = gejAddZinvVar (m.gej a) (m.ge b) (m.fe (.obj o c)) ∧ SameBut r none m m' := by
  refine Ends_ite (fun ha => ?_) (fun ha => Ends_one (Ends_ite (fun hb => Ends_one ?_) (fun hb => ?_)))
  · rcases eq_or_ne r b with rfl | h
    · mem_simp [gejAddZinvVar, ha]
    · mem_simp [gejAddZinvVar, ha, h, h.symm]
  · have hd : gejAddZinvVar (m.gej a) (m.ge b) (m.fe (.obj o c)) = m.gej a := by
      simp [gejAddZinvVar, Mem.gej, Mem.ge, ha, hb]
    rw [hd]
    exact gejCopy_ok r a m
  · refine Ends_append (addZinvVar₁_ok a b o c hz m) fun m1 ⟨h0, h2, h4, h6, h7⟩ => Ends_one ?_
    have key := branch_ok r a none (by simp) [setInf r (fun _ => false), feMul (pz r) (pz a) (.loc 6)] m m1 h0
      (mul (m.fe (pz a)) (m1.fe (.loc 6))) (setInt 0)
      (by mem_simp [h0.1]) _ rfl
    have e : ∀ l, ite' (fun m : Mem α => normalizesToZero (m.fe (.loc 7))) [gejDoubleVarM r a none]
        [ifPtr none l, gejSetInfinityM r] = ite' (fun m : Mem α => normalizesToZero (m.fe (.loc 7)))
        [gejDoubleVarM r a none] [gejSetInfinityM r] := fun l => rfl
    rw [e] at key
    refine key.mono fun m' ⟨k1, _, k3⟩ => ⟨?_, k3⟩
    rw [k1, h6, h7, h2, h4]
    simp only [gejAddZinvVar, Mem.gej, Mem.ge, ha, hb, tailX, tailY]
    simp only [Bool.false_eq_true, if_false]
    split_ifs <;> rfl

theorem gejAddGeM₁_ok (a b : ℕ) (m : Mem α) : Ends (run (gejAddGeM₁ a b) m) fun m' => SameObj m m' ∧
    m'.fe (.loc 1) = m.fe (px a) ∧
    m'.fe (.loc 3) = m.fe (py a) ∧
    m'.fe (.loc 5) = add (m.fe (px a)) (mul (m.fe (px b)) (sqr (m.fe (pz a)))) ∧
    m'.fe (.loc 7) = add (m.fe (py a)) (mul (mul (m.fe (py b)) (sqr (m.fe (pz a)))) (m.fe (pz a))) ∧
    m'.fe (.loc 10) = add (sqr (add (m.fe (px a)) (mul (m.fe (px b)) (sqr (m.fe (pz a))))))
      (mul (m.fe (px a)) (negate (mul (m.fe (px b)) (sqr (m.fe (pz a)))) 1)) ∧
    m'.fe (.loc 11) = negate (mul (m.fe (px b)) (sqr (m.fe (pz a)))) 1 := by
  mem_simp [gejAddGeM₁, SameObj]

theorem gejAddGeM₂_ok (d : Bool) (m : Mem α) : Ends (run (gejAddGeM₂ d) m) fun m' => SameObj m m' ∧
    m'.fe (.loc 12) = cmov (mulInt (m.fe (.loc 3)) 2) (m.fe (.loc 10)) (!d) ∧
    m'.fe (.loc 11) = cmov (add (m.fe (.loc 11)) (m.fe (.loc 1))) (m.fe (.loc 7)) (!d) ∧
    m'.fe (.loc 9) = mul (negate (m.fe (.loc 5)) (gejXMag + 1))
      (sqr (cmov (add (m.fe (.loc 11)) (m.fe (.loc 1))) (m.fe (.loc 7)) (!d))) ∧
    m'.fe (.loc 8) = cmov (sqr (sqr (cmov (add (m.fe (.loc 11)) (m.fe (.loc 1))) (m.fe (.loc 7)) (!d))))
      (m.fe (.loc 7)) d ∧
    m'.fe (.loc 5) = sqr (cmov (mulInt (m.fe (.loc 3)) 2) (m.fe (.loc 10)) (!d)) := by
  mem_simp [gejAddGeM₂, SameObj]

theorem gejAddGeM₃_ok (r a b : ℕ) (hb : b ≠ r) (m : Mem α) : Ends (run (gejAddGeM₃ r a b) m) fun m' =>
    m'.gej r = ⟨cmov (add (m.fe (.loc 5)) (m.fe (.loc 9))) (m.fe (px b)) (m.inf a),
      cmov (half (negate (add (mul (add (mulInt (add (m.fe (.loc 5)) (m.fe (.loc 9))) 2) (m.fe (.loc 9)))
        (m.fe (.loc 12))) (m.fe (.loc 8))) (gejYMag + 2))) (m.fe (py b)) (m.inf a),
      cmov (mul (m.fe (pz a)) (m.fe (.loc 11))) (setInt 1) (m.inf a),
      normalizesToZero (cmov (mul (m.fe (pz a)) (m.fe (.loc 11))) (setInt 1) (m.inf a))⟩ ∧
    SameBut r none m m' := by
  rcases eq_or_ne a r with rfl | ha
  · simp +contextual (maxSteps := 1000000) [gejAddGeM₃, run, feMul, feAdd, feCopy, feMulInt, feNegate, feHalf, feCmov, feCmovOne,
      setInf, Mem.wr, Mem.wrInf, Mem.gej, SameBut, hb, hb.symm]
  · simp +contextual (maxSteps := 1000000) [gejAddGeM₃, run, feMul, feAdd, feCopy, feMulInt, feNegate, feHalf, feCmov, feCmovOne,
      setInf, Mem.wr, Mem.wrInf, Mem.gej, SameBut, hb, hb.symm, ha, ha.symm]

theorem gejAddGeM_ok (r a b : ℕ) (hb : b ≠ r) (m : Mem α) :
    Ends (gejAddGeM r a b m) fun m' => m'.gej r = gejAddGe (m.gej a) (m.ge b) ∧ SameBut r none m m' := by
  refine Ends.bind (gejAddGeM₁_ok a b m) fun m1 ⟨s1, h1, h3, h5, h7, h10, h11⟩ => ?_
  refine Ends_append (gejAddGeM₂_ok _ m1) fun m2 ⟨s2, g12, g11, g9, g8, g5⟩ => ?_
  refine (gejAddGeM₃_ok r a b hb m2).mono fun m3 ⟨k, s3⟩ => ⟨?_, s1.trans (s2.trans s3)⟩
  rw [k, g12, g11, g9, g8, g5, h1, h3, h5, h7, h10, h11, s2.2, s1.2, s2.1, s1.1, s2.1, s1.1, s2.1, s1.1]
  rfl

theorem geMulLambdaM_ok (beta : α) (r a : ℕ) (m : Mem α) :
    Ends (geMulLambdaM beta r a m) fun m' =>
      m'.ge r = { m.ge a with x := mul (m.fe (px a)) beta } ∧ SameButGe r m m' := by
  rcases eq_or_ne r a with rfl | h
  · mem_simp [geMulLambdaM, geCopy]
  · mem_simp [geMulLambdaM, geCopy, h, h.symm]

end Secp.Model.Mem
