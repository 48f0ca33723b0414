import Verif.Proof.Inplace

/-!
# Programs of point operations on memory
-/

namespace Secp.Model.Mem

open FeOps

variable {α : Type} [FeOps α]

/-- What the operations do to structures that represent points. -/
structure PtLaws (J : Gej α → Pt → Prop) (A : Ge α → Pt → Prop) : Prop where
  double : ∀ {a P}, J a P → J (gejDouble a) (P + P)
  doubleVar : ∀ {a P}, J a P → J (gejDoubleVar a).1 (P + P)
  addVar : ∀ {a b P Q}, J a P → J b Q → J (gejAddVar a b).1 (P + Q)
  addGeVar : ∀ {a b P Q}, J a P → A b Q → J (gejAddGeVar a b).1 (P + Q)
  addGe : ∀ {a b P Q}, J a P → A b Q → Q ≠ 0 → J (gejAddGe a b) (P + Q)
  gejNeg : ∀ {a P}, J a P → J (gejNeg a) (-P)
  geNeg : ∀ {a P}, A a P → A (geNeg a) (-P)
  setGe : ∀ {a P}, A a P → J (gejSetGe a) P
  setGej : ∀ {a P}, J a P → A (geSetGej a) P
  setGejVar : ∀ {a P}, J a P → A (geSetGejVar a) P
  cmov : ∀ {a b P Q}, J a P → J b Q → ∀ f : Bool, J (gejCmov a b f) (if f then Q else P)

/-- Every object represents its point. -/
def Holds (J : Gej α → Pt → Prop) (A : Ge α → Pt → Prop) (jac : ℕ → Prop) (m : Mem α) (S : ℕ → Pt) : Prop :=
  ∀ o, (jac o → J (m.gej o) (S o)) ∧ (¬ jac o → A (m.ge o) (S o))

variable {J : Gej α → Pt → Prop} {A : Ge α → Pt → Prop} {jac : ℕ → Prop} {m m' : Mem α} {S : ℕ → Pt}

omit [FeOps α] in
theorem Holds.jacStep (h : Holds J A jac m S) {r : ℕ} {Q : Pt} (hr : jac r) (hJ : J (m'.gej r) Q)
    (hs : SameBut r none m m') : Holds J A jac m' (Function.update S r Q) := by
  intro o
  by_cases ho : o = r
  · subst ho
    rw [Function.update_self]
    exact ⟨fun _ => hJ, fun hn => absurd hr hn⟩
  · rw [Function.update_of_ne ho, hs.gej ho, hs.ge ho]
    exact h o

omit [FeOps α] in
theorem Holds.geStep (h : Holds J A jac m S) {r : ℕ} {Q : Pt} (hr : ¬ jac r) (hA : A (m'.ge r) Q)
    (hs : SameBut r none m m') : Holds J A jac m' (Function.update S r Q) := by
  intro o
  by_cases ho : o = r
  · subst ho
    rw [Function.update_self]
    exact ⟨fun hn => absurd hn hr, fun _ => hA⟩
  · rw [Function.update_of_ne ho, hs.gej ho, hs.ge ho]
    exact h o

omit [FeOps α] in
/-- The conversion also replaces `*a`. -/
theorem Holds.geStep2 (h : Holds J A jac m S) {r a : ℕ} {Q : Pt} (hr : ¬ jac r) (ha : jac a)
    (hA : A (m'.ge r) Q) (hJ : J (m'.gej a) (S a)) (hs : ∀ o, o ≠ r → o ≠ a → m'.gej o = m.gej o) :
    Holds J A jac m' (Function.update S r Q) := by
  intro o
  by_cases ho : o = r
  · subst ho
    rw [Function.update_self]
    exact ⟨fun hn => absurd hn hr, fun _ => hA⟩
  · rw [Function.update_of_ne ho]
    by_cases ho' : o = a
    · subst ho'
      exact ⟨fun _ => hJ, fun hn => absurd ha hn⟩
    · have e := hs o ho ho'
      have e' : m'.ge o = m.ge o := by
        have ex := congrArg Gej.x e
        have ey := congrArg Gej.y e
        have ei := congrArg Gej.infinity e
        simp only [Mem.gej] at ex ey ei
        simp [Mem.ge, ex, ey, ei]
      rw [e, e']
      exact h o

theorem step_ok (L : PtLaws J A) (h : Holds J A jac m S) (op : MOp) (ht : op.Typed jac) (hp : op.Pre S) :
    Ends (op.stmt m) fun m' => Holds J A jac m' (op.points S) := by
  have hne : ∀ {r a}, ¬ jac r → jac a → r ≠ a := fun hr ha e => hr (e ▸ ha)
  cases op with
  | double r a =>
    exact (gejDoubleM_ok r a m).mono fun m' ⟨h1, h2⟩ =>
      h.jacStep ht.1 (by rw [h1]; exact L.double ((h a).1 ht.2)) h2
  | doubleVar r a =>
    exact (gejDoubleVarM_ok r a none (by simp) m).mono fun m' ⟨h1, _, h2⟩ =>
      h.jacStep ht.1 (by rw [h1]; exact L.doubleVar ((h a).1 ht.2)) h2
  | addVar r a b =>
    exact (gejAddVarM_ok r a b none (by simp) m).mono fun m' ⟨h1, _, h2⟩ =>
      h.jacStep ht.1 (by rw [h1]; exact L.addVar ((h a).1 ht.2.1) ((h b).1 ht.2.2)) h2
  | addGeVar r a b =>
    exact (gejAddGeVarM_ok r a b none (by simp) m).mono fun m' ⟨h1, _, h2⟩ =>
      h.jacStep ht.1 (by rw [h1]; exact L.addGeVar ((h a).1 ht.2.1) ((h b).2 ht.2.2)) h2
  | addGe r a b =>
    exact (gejAddGeM_ok r a b (hne ht.2.2 ht.1) m).mono fun m' ⟨h1, h2⟩ =>
      h.jacStep ht.1 (by rw [h1]; exact L.addGe ((h a).1 ht.2.1) ((h b).2 ht.2.2) hp) h2
  | gejNeg r a =>
    exact (gejNegM_ok r a m).mono fun m' ⟨h1, h2⟩ =>
      h.jacStep ht.1 (by rw [h1]; exact L.gejNeg ((h a).1 ht.2)) h2
  | geNeg r a =>
    exact (geNegM_ok r a m).mono fun m' ⟨h1, h2⟩ =>
      h.geStep ht.1 (by rw [h1]; exact L.geNeg ((h a).2 ht.2)) h2.1
  | setGe r a =>
    exact (gejSetGeM_ok r a m).mono fun m' ⟨h1, h2⟩ =>
      h.jacStep ht.1 (by rw [h1]; exact L.setGe ((h a).2 ht.2)) h2
  | gejCopy r a =>
    exact (gejCopy_ok r a m).mono fun m' ⟨h1, h2⟩ =>
      h.jacStep ht.1 (by rw [h1]; exact (h a).1 ht.2) h2
  | cmov r a flag =>
    exact (gejCmovM_ok r a flag m).mono fun m' ⟨h1, h2⟩ =>
      h.jacStep ht.1 (by rw [h1]; exact L.cmov ((h r).1 ht.1) ((h a).1 ht.2) flag) h2
  | setGej r a =>
    refine (geSetGejM_ok r a (hne ht.1 ht.2) m).mono fun m' ⟨h1, h2, _, h4⟩ => ?_
    have hA := L.setGej ((h a).1 ht.2)
    refine h.geStep2 ht.1 ht.2 (by rw [h1]; exact hA) ?_ h4
    rw [h2]
    exact L.setGe hA
  | setGejVar r a =>
    refine (geSetGejVarM_ok r a (hne ht.1 ht.2) m).mono fun m' ⟨h1, h2, _, h4⟩ => ?_
    have hA := L.setGejVar ((h a).1 ht.2)
    refine h.geStep2 ht.1 ht.2 (by rw [h1]; exact hA) ?_ h4
    rw [h2]
    split_ifs with hi
    · exact (h a).1 ht.2
    · have := L.setGe hA
      have hi' : (geSetGejVar (m.gej a)).infinity = false := by
        simp [geSetGejVar, Mem.gej, hi, geSetXY]
      rw [← hi']
      exact this

theorem prog_ok (L : PtLaws J A) (prog : List MOp) : ∀ {m : Mem α} {S : ℕ → Pt}, Holds J A jac m S →
    (∀ op ∈ prog, op.Typed jac) → Pres S prog →
    Ends (run (prog.map MOp.stmt) m) fun m' => Holds J A jac m' (prog.foldl MOp.points S) := by
  induction prog with
  | nil => intro m S h _ _; exact Ends_nil h
  | cons op prog ih =>
    intro m S h ht hp
    exact Ends_cons (step_ok L h op (ht op (by simp)) hp.1) fun m' h' =>
      ih h' (fun op' ho => ht op' (by simp [ho])) hp.2

end Secp.Model.Mem
