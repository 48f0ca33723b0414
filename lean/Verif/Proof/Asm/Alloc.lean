import Verif.Model.Asm.ScalarX86
import Mathlib.Tactic.NormNum

/-!
# The choice of places for the operands of an `__asm__` statement does not matter

If a statement reads its inputs only before it writes the first output without `&`, and otherwise touches only
what it declares, then its outputs do not depend on where the compiler puts the operands.
-/

namespace Secp.Model.Asm

namespace Stmt

variable (b : Stmt) (acc : List (Nat × Nat))

/-- May the operand be read?  `W` are the outputs written so far; `dead` says that one without `&` is among
them.  `acc` are the memory accesses allowed: the number of the pointer and the offset. -/
def readOk (W : List Nat) (dead : Bool) : Opd → Bool
  | .reg r => decide (r ∈ b.clob)
  | .op k => decide (k ∈ W) || b.ins.any (fun i => decide (i.1 = k) &&
      (!dead || match i.2 with | .imm _ => true | _ => false))
  | .imm _ => true
  | .mem off base => !dead && b.ins.any (fun i => decide (i.2 = .fixed base) && decide ((i.1, off) ∈ acc))
  | .memOp off k => !dead && b.ins.any (fun i => decide (i.1 = k)) && decide ((k, off) ∈ acc)

/-- May the operand be written?  If so, `W` and `dead` afterwards. -/
def writeOk (W : List Nat) (dead : Bool) : Opd → Option (List Nat × Bool)
  | .reg r => if r ∈ b.clob then some (W, dead) else none
  | .op k => if (k, true) ∈ b.outs then some (k :: W, dead)
      else if (k, false) ∈ b.outs then some (k :: W, true) else none
  | .imm _ => none
  | .mem _ _ => none
  | .memOp off k => if b.readOk acc W dead (.memOp off k) then some (W, dead) else none

def stepOk (W : List Nat) (dead : Bool) : Instr → Option (List Nat × Bool)
  | .mov x y => if b.readOk acc W dead x then b.writeOk acc W dead y else none
  | .xor x y | .add x y | .adc x y =>
    if b.readOk acc W dead x && b.readOk acc W dead y then b.writeOk acc W dead y else none
  | .mul x => if b.readOk acc W dead x then some (W, dead) else none

def codeOk : List Instr → List Nat → Bool → Option (List Nat)
  | [], W, _ => some W
  | i :: l, W, dead => (b.stepOk acc W dead i).bind fun q => codeOk l q.1 q.2

/-- The static conditions on a statement -/
def ok : Bool :=
  decide (Reg.rax ∈ b.clob) && decide (Reg.rdx ∈ b.clob) &&
  b.ins.all (fun i => b.outs.all fun o => decide (i.1 ≠ o.1)) &&
  b.ins.all (fun i => match i.2 with | .fixed r => decide (r ∉ b.clob) | _ => true) &&
  ((b.codeOk acc b.code [] false).elim false fun W => b.outs.all fun o => decide (o.1 ∈ W))

variable {b acc} {obj : Nat → Prop} {v : Nat → Nat} {σ : Nat → Loc} {W : List Nat} {dead : Bool} {s t : St}

/-- The machine state `s`, with the operands in the places `σ`, and the state `t`, with every operand in a
place of its own. -/
structure Sim (b : Stmt) (obj : Nat → Prop) (v : Nat → Nat) (σ : Nat → Loc) (W : List Nat) (dead : Bool)
    (s t : St) : Prop where
  reg : ∀ r ∈ b.clob, s.reg r = t.reg r
  cf : s.cf = t.cf
  sub : ∀ k ∈ W, ∃ e, (k, e) ∈ b.outs
  outs : ∀ k ∈ W, s.get (σ k) = t.cell k
  ins : dead = false → ∀ k c, (k, c) ∈ b.ins → s.get (σ k) = v k
  cells : ∀ k c, (k, c) ∈ b.ins → t.cell k = v k
  fixed : ∀ k r, (k, .fixed r) ∈ b.ins → t.reg r = v k
  imms : ∀ k w, (k, .imm w) ∈ b.ins → w = v k
  mem : ∀ a, obj a → s.mem a = t.mem a

theorem get_setReg {l : Loc} {r : Reg} (h : l ≠ .reg r) (x : Nat) : (s.setReg r x).get l = s.get l := by
  cases l with
  | reg r' =>
    have : r' ≠ r := fun e => h (by rw [e])
    simp [St.get, St.setReg, Function.update_of_ne this]
  | _ => rfl

theorem get_setMem {l : Loc} {a : Nat} (h : l ≠ .slot a) (x : Nat) : (s.setMem a x).get l = s.get l := by
  cases l with
  | slot a' =>
    have : a' ≠ a := fun e => h (by rw [e])
    simp [St.get, St.setMem, Function.update_of_ne this]
  | _ => rfl

theorem get_set {l l' : Loc} (h : l ≠ l') (x : Nat) : (s.set x l').get l = s.get l := by
  cases l' with
  | reg r => exact get_setReg h x
  | slot a => exact get_setMem h x
  | imm v => rfl
  | cell k =>
    cases l with
    | cell k' =>
      have : k' ≠ k := fun e => h (by rw [e])
      simp [St.get, St.set, St.setCell, Function.update_of_ne this]
    | _ => rfl

variable (hb : b.ok acc = true) (hσ : b.Allowed obj σ) (hacc : ∀ k off, (k, off) ∈ acc → obj (v k + off))

include hb in
theorem ok_ne {k k' : Nat} {c : Constraint} {e : Bool} (h : (k, c) ∈ b.ins) (h' : (k', e) ∈ b.outs) : k ≠ k' := by
  unfold ok at hb
  simp only [Bool.and_eq_true, List.all_eq_true, decide_eq_true_eq] at hb
  exact hb.1.1.2 _ h _ h'

include hb in
theorem ok_fixed {k : Nat} {r : Reg} (h : (k, .fixed r) ∈ b.ins) : r ∉ b.clob := by
  unfold ok at hb
  simp only [Bool.and_eq_true, List.all_eq_true] at hb
  have := hb.1.2 _ h
  simpa using this

include hσ in
/-- No operand is in a clobbered register. -/
theorem out_not_clob {k : Nat} {e : Bool} (h : (k, e) ∈ b.outs) {r : Reg} (hr : r ∈ b.clob) : σ k ≠ .reg r := by
  rcases hσ.outs k e h with ⟨r', e1, e2, -⟩ | ⟨a, e1, -⟩
  · rw [e1]; intro h'; injection h' with h'; exact e2 (h' ▸ hr)
  · rw [e1]; simp

include hσ in
theorem out_not_obj {k : Nat} {e : Bool} (h : (k, e) ∈ b.outs) {a : Nat} (ha : obj a) : σ k ≠ .slot a := by
  rcases hσ.outs k e h with ⟨r', e1, e2, -⟩ | ⟨a', e1, e2⟩
  · rw [e1]; simp
  · rw [e1]; intro h'; injection h' with h'; exact e2 (h' ▸ ha)

include hb hσ in
theorem in_not_clob {k : Nat} {c : Constraint} (h : (k, c) ∈ b.ins) {r : Reg} (hr : r ∈ b.clob) : σ k ≠ .reg r := by
  cases c with
  | g =>
    rcases hσ.ins k h with ⟨r', e1, e2⟩ | ⟨a, e1, -⟩ | ⟨w, e1⟩
    · rw [e1]; intro h'; injection h' with h'; exact e2 (h' ▸ hr)
    · rw [e1]; simp
    · rw [e1]; simp
  | fixed r' =>
    rw [hσ.fixed k r' h]; intro h'; injection h' with h'; exact ok_fixed hb h (h' ▸ hr)
  | imm w => rw [hσ.imm k w h]; simp

include hσ in
theorem in_not_obj {k : Nat} {c : Constraint} (h : (k, c) ∈ b.ins) {a : Nat} (ha : obj a) : σ k ≠ .slot a := by
  cases c with
  | g =>
    rcases hσ.ins k h with ⟨r', e1, -⟩ | ⟨a', e1, e2⟩ | ⟨w, e1⟩
    · rw [e1]; simp
    · rw [e1]; intro h'; injection h' with h'; exact e2 (h' ▸ ha)
    · rw [e1]; simp
  | fixed r' => rw [hσ.fixed k r' h]; simp
  | imm w => rw [hσ.imm k w h]; simp

include hb hσ in
theorem Sim.setReg (h : Sim b obj v σ W dead s t) {r : Reg} (hr : r ∈ b.clob) (x : Nat) :
    Sim b obj v σ W dead (s.setReg r x) (t.setReg r x) where
  reg r' hr' := by
    unfold St.setReg
    by_cases e : r' = r
    · subst e; simp
    · simp only [Function.update_of_ne e]; exact h.reg r' hr'
  cf := h.cf
  sub := h.sub
  outs k hk := by
    obtain ⟨e, he⟩ := h.sub k hk
    rw [get_setReg (out_not_clob hσ he hr)]
    exact h.outs k hk
  ins hd k c hk := by rw [get_setReg (in_not_clob hb hσ hk hr)]; exact h.ins hd k c hk
  cells := h.cells
  fixed k r' hk := by
    have : r' ≠ r := fun e => ok_fixed hb hk (e ▸ hr)
    unfold St.setReg
    simp only [Function.update_of_ne this]
    exact h.fixed k r' hk
  imms := h.imms
  mem := h.mem

include hb hσ in
theorem Sim.setOut (h : Sim b obj v σ W dead s t) {k : Nat} {e : Bool} (hk : (k, e) ∈ b.outs) (x : Nat) :
    Sim b obj v σ (k :: W) (dead || !e) (s.set x (σ k)) (t.setCell k x) where
  reg r hr := by
    have := get_set (s := s) (fun h' => out_not_clob hσ hk hr h'.symm : Loc.reg r ≠ σ k) x
    exact this.trans (h.reg r hr)
  cf := by
    have : ∀ l, (s.set x l).cf = s.cf := fun l => by cases l <;> rfl
    exact (this _).trans h.cf
  sub k' hk' := by
    rcases List.mem_cons.1 hk' with rfl | hk'
    · exact ⟨e, hk⟩
    · exact h.sub k' hk'
  outs k' hk' := by
    by_cases ek : k' = k
    · subst ek
      rcases hσ.outs k' e hk with ⟨r, e1, -⟩ | ⟨a, e1, -⟩ <;>
        simp [e1, St.set, St.get, St.setReg, St.setMem, St.setCell]
    · have hm := (List.mem_cons.1 hk').resolve_left ek
      obtain ⟨e', he'⟩ := h.sub k' hm
      rw [get_set (hσ.distinct k' e' k e he' hk ek)]
      simp only [St.setCell, Function.update_of_ne ek]
      exact h.outs k' hm
  ins hd k' c hk' := by
    rw [Bool.or_eq_false_iff] at hd
    obtain ⟨hd, he⟩ := hd
    have he : e = true := by simpa using he
    subst he
    rw [get_set (hσ.early k c k' hk hk').symm]
    exact h.ins hd k' c hk'
  cells k' c hk' := by
    simp only [St.setCell, Function.update_of_ne (ok_ne hb hk' hk)]
    exact h.cells k' c hk'
  fixed := h.fixed
  imms := h.imms
  mem a ha := by
    have := get_set (s := s) (fun h' => out_not_obj hσ hk ha h'.symm : Loc.slot a ≠ σ k) x
    exact this.trans (h.mem a ha)

include hσ in
theorem Sim.setMem (h : Sim b obj v σ W dead s t) {a : Nat} (ha : obj a) (x : Nat) :
    Sim b obj v σ W dead (s.setMem a x) (t.setMem a x) where
  reg := h.reg
  cf := h.cf
  sub := h.sub
  outs k hk := by
    obtain ⟨e, he⟩ := h.sub k hk
    rw [get_setMem (out_not_obj hσ he ha)]
    exact h.outs k hk
  ins hd k c hk := by rw [get_setMem (in_not_obj hσ hk ha)]; exact h.ins hd k c hk
  cells := h.cells
  fixed := h.fixed
  imms := h.imms
  mem a' ha' := by
    unfold St.setMem
    by_cases e : a' = a
    · subst e; simp
    · simp only [Function.update_of_ne e]; exact h.mem a' ha'

theorem Sim.setCf (h : Sim b obj v σ W dead s t) (c : Bool) :
    Sim b obj v σ W dead { s with cf := c } { t with cf := c } where
  reg := h.reg
  cf := rfl
  sub := h.sub
  outs k hk := by
    have : ({ s with cf := c } : St).get (σ k) = s.get (σ k) := by cases σ k <;> rfl
    rw [this]; exact h.outs k hk
  ins hd k c' hk := by
    have : ({ s with cf := c } : St).get (σ k) = s.get (σ k) := by cases σ k <;> rfl
    rw [this]; exact h.ins hd k c' hk
  cells := h.cells
  fixed := h.fixed
  imms := h.imms
  mem := h.mem

include hσ hacc in
theorem Sim.read (h : Sim b obj v σ W dead s t) {x : Opd} (hx : b.readOk acc W dead x = true) :
    s.read σ x = t.read .cell x := by
  cases x with
  | reg r => exact h.reg r (by simpa [readOk] using hx)
  | op k =>
    simp only [readOk, Bool.or_eq_true, decide_eq_true_eq, List.any_eq_true, Bool.and_eq_true] at hx
    rcases hx with hx | ⟨⟨k', c⟩, hm, e, hc⟩
    · exact h.outs k hx
    · dsimp only at e; subst e
      have hcell := h.cells k' c hm
      show s.get (σ k') = t.cell k'
      rw [hcell]
      rcases hc with hd | hc
      · exact h.ins (by simpa using hd) k' c hm
      · cases c with
        | imm w => rw [hσ.imm k' w hm]; exact h.imms k' w hm
        | g => simp at hc
        | fixed r => simp at hc
  | imm w => rfl
  | mem off base =>
    simp only [readOk, List.any_eq_true, Bool.and_eq_true, decide_eq_true_eq] at hx
    obtain ⟨hd, ⟨k, c⟩, hm, hc, ha⟩ := hx
    dsimp only at hc ha; subst hc
    have e1 := h.ins (by simpa using hd) k _ hm
    rw [hσ.fixed k base hm] at e1
    have e2 := h.fixed k base hm
    show s.mem (s.reg base + off) = t.mem (t.reg base + off)
    have e1 : s.reg base = v k := e1
    rw [e1, e2]
    exact h.mem _ (hacc k off ha)
  | memOp off k =>
    simp only [readOk, List.any_eq_true, Bool.and_eq_true, decide_eq_true_eq] at hx
    obtain ⟨⟨hd, ⟨k', c⟩, hm, e⟩, ha⟩ := hx
    dsimp only at e; subst e
    show s.mem (s.get (σ k') + off) = t.mem (t.cell k' + off)
    rw [h.ins (by simpa using hd) k' c hm, h.cells k' c hm]
    exact h.mem _ (hacc k' off ha)

include hb hσ hacc in
theorem Sim.write (h : Sim b obj v σ W dead s t) {x : Opd} {q : List Nat × Bool}
    (hx : b.writeOk acc W dead x = some q) (y : Nat) : Sim b obj v σ q.1 q.2 (s.write σ y x) (t.write .cell y x) := by
  cases x with
  | reg r =>
    simp only [writeOk] at hx
    split_ifs at hx with hr
    cases hx
    exact h.setReg hb hσ hr y
  | op k =>
    simp only [writeOk] at hx
    split_ifs at hx with hk hk
    · cases hx
      have := h.setOut hb hσ hk y
      simp only [Bool.not_true, Bool.or_false, Bool.not_false, Bool.or_true] at this
      exact this
    · cases hx
      have := h.setOut hb hσ hk y
      simp only [Bool.not_true, Bool.or_false, Bool.not_false, Bool.or_true] at this
      exact this
  | imm w => simp [writeOk] at hx
  | mem off base => simp [writeOk] at hx
  | memOp off k =>
    simp only [writeOk] at hx
    split_ifs at hx with hr
    cases hx
    simp only [readOk, List.any_eq_true, Bool.and_eq_true, decide_eq_true_eq] at hr
    obtain ⟨⟨hd, ⟨k', c⟩, hm, e⟩, ha⟩ := hr
    dsimp only at e; subst e
    have e1 := h.ins (by simpa using hd) k' c hm
    have e2 := h.cells k' c hm
    show Sim b obj v σ W dead (s.setMem (s.get (σ k') + off) y) (t.setMem (t.cell k' + off) y)
    rw [e1, e2]
    exact h.setMem hσ (hacc k' off ha) y

include hb in
theorem ok_rax : Reg.rax ∈ b.clob ∧ Reg.rdx ∈ b.clob := by
  unfold ok at hb
  simp only [Bool.and_eq_true, decide_eq_true_eq] at hb
  exact hb.1.1.1

include hb hσ hacc in
theorem Sim.step (h : Sim b obj v σ W dead s t) {i : Instr} {q : List Nat × Bool}
    (hi : b.stepOk acc W dead i = some q) : Sim b obj v σ q.1 q.2 (step σ s i) (step .cell t i) := by
  cases i with
  | mov x y =>
    simp only [stepOk] at hi
    split_ifs at hi with hx
    show Sim b obj v σ q.1 q.2 (s.write σ (s.read σ x) y) (t.write .cell (t.read .cell x) y)
    rw [h.read hσ hacc hx]
    exact h.write hb hσ hacc hi _
  | xor x y =>
    simp only [stepOk] at hi
    split_ifs at hi with hx
    rw [Bool.and_eq_true] at hx
    unfold Asm.step
    dsimp only
    rw [h.read hσ hacc hx.1, h.read hσ hacc hx.2]
    exact (h.write hb hσ hacc hi _).setCf _
  | add x y =>
    simp only [stepOk] at hi
    split_ifs at hi with hx
    rw [Bool.and_eq_true] at hx
    unfold Asm.step
    dsimp only
    rw [h.read hσ hacc hx.1, h.read hσ hacc hx.2]
    exact (h.write hb hσ hacc hi _).setCf _
  | adc x y =>
    simp only [stepOk] at hi
    split_ifs at hi with hx
    rw [Bool.and_eq_true] at hx
    unfold Asm.step
    dsimp only
    rw [h.read hσ hacc hx.1, h.read hσ hacc hx.2, h.cf]
    exact (h.write hb hσ hacc hi _).setCf _
  | mul x =>
    simp only [stepOk] at hi
    split_ifs at hi with hx
    cases hi
    unfold Asm.step
    dsimp only
    rw [h.read hσ hacc hx, h.reg .rax (ok_rax hb).1]
    exact ((h.setReg hb hσ (ok_rax hb).1 _).setReg hb hσ (ok_rax hb).2 _).setCf _

include hb hσ hacc in
theorem Sim.run (l : List Instr) : ∀ {W dead s t} (_ : Sim b obj v σ W dead s t) {W' : List Nat},
    b.codeOk acc l W dead = some W' → ∃ d, Sim b obj v σ W' d (run σ s l) (run .cell t l) := by
  induction l with
  | nil => intro W dead s t h W' hW; cases hW; exact ⟨_, h⟩
  | cons i l ih =>
    intro W dead s t h W' hW
    rw [codeOk] at hW
    obtain ⟨q, hq, hW⟩ := Option.bind_eq_some_iff.1 hW
    exact ih (h.step hb hσ hacc hq) hW

/-- Whatever places the compiler chooses, the results are those of the run with every operand in a place of its
own. -/
theorem exec_ideal {b : Stmt} {acc : List (Nat × Nat)} (hb : b.ok acc = true) {obj : Nat → Prop} {v w m m' : Nat → Nat}
    (hacc : ∀ k off, (k, off) ∈ acc → obj (v k + off)) (h : b.Exec obj v m w m') :
    ∃ t : St, t.Words ∧ (∀ k c, (k, c) ∈ b.ins → t.cell k = v k) ∧ (∀ k r, (k, .fixed r) ∈ b.ins → t.reg r = v k) ∧
      (∀ a, obj a → t.mem a = m a) ∧ (∀ k e, (k, e) ∈ b.outs → (run .cell t b.code).cell k = w k) ∧
      ∀ a, obj a → (run .cell t b.code).mem a = m' a := by
  obtain ⟨σ, s, hs, hσ, hv, hm, hw, hm'⟩ := h
  have h0 : Sim b obj v σ [] false s { s with cell := fun k => v k % 2 ^ 64 } :=
    { reg := fun _ _ => rfl
      cf := rfl
      sub := fun _ hk => absurd hk List.not_mem_nil
      outs := fun _ hk => absurd hk List.not_mem_nil
      ins := fun _ k c hk => (hv k c hk).1
      cells := fun k c hk => Nat.mod_eq_of_lt (hv k c hk).2
      fixed := fun k r hk => by have := (hv k _ hk).1; rw [hσ.fixed k r hk] at this; exact this
      imms := fun k w hk => by have := (hv k _ hk).1; rw [hσ.imm k w hk] at this; exact this
      mem := fun _ _ => rfl }
  have hok := hb
  unfold ok at hok
  rw [Bool.and_eq_true] at hok
  obtain ⟨-, hok⟩ := hok
  cases hc : b.codeOk acc b.code [] false with
  | none => rw [hc] at hok; cases hok
  | some W =>
    rw [hc] at hok
    simp only [Option.elim_some, List.all_eq_true, decide_eq_true_eq] at hok
    obtain ⟨d, hr⟩ := Sim.run hb hσ hacc b.code h0 hc
    refine ⟨{ s with cell := fun k => v k % 2 ^ 64 }, ⟨hs.reg, hs.mem, fun k => Nat.mod_lt _ (by norm_num)⟩, h0.cells, h0.fixed, fun a ha => hm a ha, fun k e hk => ?_, fun a ha => ?_⟩
    · rw [← hr.outs k (hok _ hk)]; exact hw k e hk
    · rw [← hr.mem a ha]; exact hm' a ha

end Stmt

theorem reduceA_ok : reduceA.ok [(7, 0), (7, 8), (7, 16), (7, 24), (7, 32), (7, 40), (7, 48), (7, 56)] = true := by
  decide +kernel

theorem reduceB_ok : reduceB.ok [] = true := by decide +kernel

theorem reduceC_ok : reduceC.ok [(6, 0), (6, 8), (6, 16), (6, 24)] = true := by decide +kernel

end Secp.Model.Asm
